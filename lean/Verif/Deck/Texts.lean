import Verif.Deck.Lemmas

/-!
# The templates with values put in

For each template, the text with the values, what `format` makes of the template, and that the text has no braces if the values have none.
-/

namespace ASAPy.Deck

set_option maxRecDepth 100000

instance (s : W) : Decidable (NoBrace s) := inferInstanceAs (Decidable (∀ c ∈ s, c ≠ '{' ∧ c ≠ '}'))

theorem noBrace_append {s t : W} (hs : NoBrace s) (ht : NoBrace t) : NoBrace (s ++ t) := by
  intro c hc
  rcases List.mem_append.1 hc with h | h
  · exact hs c h
  · exact ht c h

theorem render_chrs (env : List (W × W)) (s : W) (q : List Piece) : render env (s.map .chr ++ q) = (s ++ ·) <$> render env q := by
  rw [render_append, render_chr]; cases render env q <;> rfl

theorem render_fld {env : List (W × W)} {n v : W} (h : Dict.get? env n = some v) (q : List Piece) : render env ([.fld n] ++ q) = (v ++ ·) <$> render env q := by
  rw [List.singleton_append, render, h]

theorem Plain.noBrace {w : W} (h : Plain w) : NoBrace w := fun c hc => ⟨(h.2 c hc).2.2.2.1, (h.2 c hc).2.2.2.2⟩

/-- `tReconr` with the values put in. -/
def xReconr (nendf npendf library zsymam mat error : W) : W :=
  c!"\nreconr / %%%%%%%%%%%%%%%%%%% Reconstruct XS for neutrons %%%%%%%%%%%%%%%%%%%%%%%\n" ++ (nendf ++ (c!" " ++ (npendf ++ (c!"\n'" ++ (library ++ (c!" PENDF for " ++ (zsymam ++ (c!"'/\n" ++ (mat ++ (c!" 2/\n" ++ (error ++ (c!"/ err\n'" ++ (library ++ (c!": " ++ (zsymam ++ (c!"'/\n'Processed by NJOY'/\n0/\n"))))))))))))))))

theorem noBrace_xReconr {nendf npendf library zsymam mat error : W} (h_nendf : NoBrace nendf) (h_npendf : NoBrace npendf) (h_library : NoBrace library) (h_zsymam : NoBrace zsymam) (h_mat : NoBrace mat) (h_error : NoBrace error) : NoBrace (xReconr nendf npendf library zsymam mat error) :=
  noBrace_append (by decide +kernel) (noBrace_append h_nendf (noBrace_append (by decide +kernel) (noBrace_append h_npendf (noBrace_append (by decide +kernel) (noBrace_append h_library (noBrace_append (by decide +kernel) (noBrace_append h_zsymam (noBrace_append (by decide +kernel) (noBrace_append h_mat (noBrace_append (by decide +kernel) (noBrace_append h_error (noBrace_append (by decide +kernel) (noBrace_append h_library (noBrace_append (by decide +kernel) (noBrace_append h_zsymam ((by decide +kernel)))))))))))))))))

theorem format_xReconr {env : List (W × W)} {nendf npendf library zsymam mat error : W} (h_nendf : Dict.get? env c!"nendf" = some nendf) (h_npendf : Dict.get? env c!"npendf" = some npendf) (h_library : Dict.get? env c!"library" = some library) (h_zsymam : Dict.get? env c!"zsymam" = some zsymam) (h_mat : Dict.get? env c!"mat" = some mat) (h_error : Dict.get? env c!"error" = some error) : format env tReconr = .ok (xReconr nendf npendf library zsymam mat error) := by
  have hp : parse tReconr = some ((c!"\nreconr / %%%%%%%%%%%%%%%%%%% Reconstruct XS for neutrons %%%%%%%%%%%%%%%%%%%%%%%\n").map Piece.chr ++ ([Piece.fld c!"nendf"] ++ ((c!" ").map Piece.chr ++ ([Piece.fld c!"npendf"] ++ ((c!"\n'").map Piece.chr ++ ([Piece.fld c!"library"] ++ ((c!" PENDF for ").map Piece.chr ++ ([Piece.fld c!"zsymam"] ++ ((c!"'/\n").map Piece.chr ++ ([Piece.fld c!"mat"] ++ ((c!" 2/\n").map Piece.chr ++ ([Piece.fld c!"error"] ++ ((c!"/ err\n'").map Piece.chr ++ ([Piece.fld c!"library"] ++ ((c!": ").map Piece.chr ++ ([Piece.fld c!"zsymam"] ++ ((c!"'/\n'Processed by NJOY'/\n0/\n").map Piece.chr))))))))))))))))) := by rfl
  simp only [format, hp, render_chrs, render_chr, render_fld h_nendf, render_fld h_npendf, render_fld h_library, render_fld h_zsymam, render_fld h_mat, render_fld h_error]
  rfl

/-- `tBroadr` with the values put in. -/
def xBroadr (nendf npendf nbroadr mat num_temp error temps : W) : W :=
  c!"\nbroadr / %%%%%%%%%%%%%%%%%%%%%%% Doppler broaden XS %%%%%%%%%%%%%%%%%%%%%%%%%%%%\n" ++ (nendf ++ (c!" " ++ (npendf ++ (c!" " ++ (nbroadr ++ (c!"\n" ++ (mat ++ (c!" " ++ (num_temp ++ (c!" 0 0 0. /\n" ++ (error ++ (c!"/ errthn\n" ++ (temps ++ (c!"\n0/\n"))))))))))))))

theorem noBrace_xBroadr {nendf npendf nbroadr mat num_temp error temps : W} (h_nendf : NoBrace nendf) (h_npendf : NoBrace npendf) (h_nbroadr : NoBrace nbroadr) (h_mat : NoBrace mat) (h_num_temp : NoBrace num_temp) (h_error : NoBrace error) (h_temps : NoBrace temps) : NoBrace (xBroadr nendf npendf nbroadr mat num_temp error temps) :=
  noBrace_append (by decide +kernel) (noBrace_append h_nendf (noBrace_append (by decide +kernel) (noBrace_append h_npendf (noBrace_append (by decide +kernel) (noBrace_append h_nbroadr (noBrace_append (by decide +kernel) (noBrace_append h_mat (noBrace_append (by decide +kernel) (noBrace_append h_num_temp (noBrace_append (by decide +kernel) (noBrace_append h_error (noBrace_append (by decide +kernel) (noBrace_append h_temps ((by decide +kernel)))))))))))))))

theorem format_xBroadr {env : List (W × W)} {nendf npendf nbroadr mat num_temp error temps : W} (h_nendf : Dict.get? env c!"nendf" = some nendf) (h_npendf : Dict.get? env c!"npendf" = some npendf) (h_nbroadr : Dict.get? env c!"nbroadr" = some nbroadr) (h_mat : Dict.get? env c!"mat" = some mat) (h_num_temp : Dict.get? env c!"num_temp" = some num_temp) (h_error : Dict.get? env c!"error" = some error) (h_temps : Dict.get? env c!"temps" = some temps) : format env tBroadr = .ok (xBroadr nendf npendf nbroadr mat num_temp error temps) := by
  have hp : parse tBroadr = some ((c!"\nbroadr / %%%%%%%%%%%%%%%%%%%%%%% Doppler broaden XS %%%%%%%%%%%%%%%%%%%%%%%%%%%%\n").map Piece.chr ++ ([Piece.fld c!"nendf"] ++ ((c!" ").map Piece.chr ++ ([Piece.fld c!"npendf"] ++ ((c!" ").map Piece.chr ++ ([Piece.fld c!"nbroadr"] ++ ((c!"\n").map Piece.chr ++ ([Piece.fld c!"mat"] ++ ((c!" ").map Piece.chr ++ ([Piece.fld c!"num_temp"] ++ ((c!" 0 0 0. /\n").map Piece.chr ++ ([Piece.fld c!"error"] ++ ((c!"/ errthn\n").map Piece.chr ++ ([Piece.fld c!"temps"] ++ ((c!"\n0/\n").map Piece.chr))))))))))))))) := by rfl
  simp only [format, hp, render_chrs, render_chr, render_fld h_nendf, render_fld h_npendf, render_fld h_nbroadr, render_fld h_mat, render_fld h_num_temp, render_fld h_error, render_fld h_temps]
  rfl

/-- `tHeatr` with the values put in. -/
def xHeatr (nendf nheatr_in nheatr mat : W) : W :=
  c!"\nheatr / %%%%%%%%%%%%%%%%%%%%%%%%% Add heating kerma %%%%%%%%%%%%%%%%%%%%%%%%%%%%\n" ++ (nendf ++ (c!" " ++ (nheatr_in ++ (c!" " ++ (nheatr ++ (c!" /\n" ++ (mat ++ (c!" 3 /\n302 318 402 /\n"))))))))

theorem noBrace_xHeatr {nendf nheatr_in nheatr mat : W} (h_nendf : NoBrace nendf) (h_nheatr_in : NoBrace nheatr_in) (h_nheatr : NoBrace nheatr) (h_mat : NoBrace mat) : NoBrace (xHeatr nendf nheatr_in nheatr mat) :=
  noBrace_append (by decide +kernel) (noBrace_append h_nendf (noBrace_append (by decide +kernel) (noBrace_append h_nheatr_in (noBrace_append (by decide +kernel) (noBrace_append h_nheatr (noBrace_append (by decide +kernel) (noBrace_append h_mat ((by decide +kernel)))))))))

theorem format_xHeatr {env : List (W × W)} {nendf nheatr_in nheatr mat : W} (h_nendf : Dict.get? env c!"nendf" = some nendf) (h_nheatr_in : Dict.get? env c!"nheatr_in" = some nheatr_in) (h_nheatr : Dict.get? env c!"nheatr" = some nheatr) (h_mat : Dict.get? env c!"mat" = some mat) : format env tHeatr = .ok (xHeatr nendf nheatr_in nheatr mat) := by
  have hp : parse tHeatr = some ((c!"\nheatr / %%%%%%%%%%%%%%%%%%%%%%%%% Add heating kerma %%%%%%%%%%%%%%%%%%%%%%%%%%%%\n").map Piece.chr ++ ([Piece.fld c!"nendf"] ++ ((c!" ").map Piece.chr ++ ([Piece.fld c!"nheatr_in"] ++ ((c!" ").map Piece.chr ++ ([Piece.fld c!"nheatr"] ++ ((c!" /\n").map Piece.chr ++ ([Piece.fld c!"mat"] ++ ((c!" 3 /\n302 318 402 /\n").map Piece.chr))))))))) := by rfl
  simp only [format, hp, render_chrs, render_chr, render_fld h_nendf, render_fld h_nheatr_in, render_fld h_nheatr, render_fld h_mat]
  rfl

/-- `tPurr` with the values put in. -/
def xPurr (nendf npurr_in npurr mat num_temp temps : W) : W :=
  c!"\npurr / %%%%%%%%%%%%%%%%%%%%%%%% Add probability tables %%%%%%%%%%%%%%%%%%%%%%%%%\n" ++ (nendf ++ (c!" " ++ (npurr_in ++ (c!" " ++ (npurr ++ (c!" /\n" ++ (mat ++ (c!" " ++ (num_temp ++ (c!" 1 20 64 /\n" ++ (temps ++ (c!"\n1.e10\n0/\n"))))))))))))

theorem noBrace_xPurr {nendf npurr_in npurr mat num_temp temps : W} (h_nendf : NoBrace nendf) (h_npurr_in : NoBrace npurr_in) (h_npurr : NoBrace npurr) (h_mat : NoBrace mat) (h_num_temp : NoBrace num_temp) (h_temps : NoBrace temps) : NoBrace (xPurr nendf npurr_in npurr mat num_temp temps) :=
  noBrace_append (by decide +kernel) (noBrace_append h_nendf (noBrace_append (by decide +kernel) (noBrace_append h_npurr_in (noBrace_append (by decide +kernel) (noBrace_append h_npurr (noBrace_append (by decide +kernel) (noBrace_append h_mat (noBrace_append (by decide +kernel) (noBrace_append h_num_temp (noBrace_append (by decide +kernel) (noBrace_append h_temps ((by decide +kernel)))))))))))))

theorem format_xPurr {env : List (W × W)} {nendf npurr_in npurr mat num_temp temps : W} (h_nendf : Dict.get? env c!"nendf" = some nendf) (h_npurr_in : Dict.get? env c!"npurr_in" = some npurr_in) (h_npurr : Dict.get? env c!"npurr" = some npurr) (h_mat : Dict.get? env c!"mat" = some mat) (h_num_temp : Dict.get? env c!"num_temp" = some num_temp) (h_temps : Dict.get? env c!"temps" = some temps) : format env tPurr = .ok (xPurr nendf npurr_in npurr mat num_temp temps) := by
  have hp : parse tPurr = some ((c!"\npurr / %%%%%%%%%%%%%%%%%%%%%%%% Add probability tables %%%%%%%%%%%%%%%%%%%%%%%%%\n").map Piece.chr ++ ([Piece.fld c!"nendf"] ++ ((c!" ").map Piece.chr ++ ([Piece.fld c!"npurr_in"] ++ ((c!" ").map Piece.chr ++ ([Piece.fld c!"npurr"] ++ ((c!" /\n").map Piece.chr ++ ([Piece.fld c!"mat"] ++ ((c!" ").map Piece.chr ++ ([Piece.fld c!"num_temp"] ++ ((c!" 1 20 64 /\n").map Piece.chr ++ ([Piece.fld c!"temps"] ++ ((c!"\n1.e10\n0/\n").map Piece.chr))))))))))))) := by rfl
  simp only [format, hp, render_chrs, render_chr, render_fld h_nendf, render_fld h_npurr_in, render_fld h_npurr, render_fld h_mat, render_fld h_num_temp, render_fld h_temps]
  rfl

/-- `tAcer` with the values put in. -/
def xAcer (nendf nacer_in nace ndir ext library zsymam temperature mat : W) : W :=
  c!"\nacer / %%%%%%%%%%%%%%%%%%%%%%%% Write out in ACE format %%%%%%%%%%%%%%%%%%%%%%%%\n" ++ (nendf ++ (c!" " ++ (nacer_in ++ (c!" 0 " ++ (nace ++ (c!" " ++ (ndir ++ (c!"\n1 0 1 ." ++ (ext ++ (c!" /\n'" ++ (library ++ (c!": " ++ (zsymam ++ (c!" at " ++ (temperature ++ (c!"'/\n" ++ (mat ++ (c!" " ++ (temperature ++ (c!"\n1 1/\n/\n"))))))))))))))))))))

theorem noBrace_xAcer {nendf nacer_in nace ndir ext library zsymam temperature mat : W} (h_nendf : NoBrace nendf) (h_nacer_in : NoBrace nacer_in) (h_nace : NoBrace nace) (h_ndir : NoBrace ndir) (h_ext : NoBrace ext) (h_library : NoBrace library) (h_zsymam : NoBrace zsymam) (h_temperature : NoBrace temperature) (h_mat : NoBrace mat) : NoBrace (xAcer nendf nacer_in nace ndir ext library zsymam temperature mat) :=
  noBrace_append (by decide +kernel) (noBrace_append h_nendf (noBrace_append (by decide +kernel) (noBrace_append h_nacer_in (noBrace_append (by decide +kernel) (noBrace_append h_nace (noBrace_append (by decide +kernel) (noBrace_append h_ndir (noBrace_append (by decide +kernel) (noBrace_append h_ext (noBrace_append (by decide +kernel) (noBrace_append h_library (noBrace_append (by decide +kernel) (noBrace_append h_zsymam (noBrace_append (by decide +kernel) (noBrace_append h_temperature (noBrace_append (by decide +kernel) (noBrace_append h_mat (noBrace_append (by decide +kernel) (noBrace_append h_temperature ((by decide +kernel)))))))))))))))))))))

theorem format_xAcer {env : List (W × W)} {nendf nacer_in nace ndir ext library zsymam temperature mat : W} (h_nendf : Dict.get? env c!"nendf" = some nendf) (h_nacer_in : Dict.get? env c!"nacer_in" = some nacer_in) (h_nace : Dict.get? env c!"nace" = some nace) (h_ndir : Dict.get? env c!"ndir" = some ndir) (h_ext : Dict.get? env c!"ext" = some ext) (h_library : Dict.get? env c!"library" = some library) (h_zsymam : Dict.get? env c!"zsymam" = some zsymam) (h_temperature : Dict.get? env c!"temperature" = some temperature) (h_mat : Dict.get? env c!"mat" = some mat) : format env tAcer = .ok (xAcer nendf nacer_in nace ndir ext library zsymam temperature mat) := by
  have hp : parse tAcer = some ((c!"\nacer / %%%%%%%%%%%%%%%%%%%%%%%% Write out in ACE format %%%%%%%%%%%%%%%%%%%%%%%%\n").map Piece.chr ++ ([Piece.fld c!"nendf"] ++ ((c!" ").map Piece.chr ++ ([Piece.fld c!"nacer_in"] ++ ((c!" 0 ").map Piece.chr ++ ([Piece.fld c!"nace"] ++ ((c!" ").map Piece.chr ++ ([Piece.fld c!"ndir"] ++ ((c!"\n1 0 1 .").map Piece.chr ++ ([Piece.fld c!"ext"] ++ ((c!" /\n'").map Piece.chr ++ ([Piece.fld c!"library"] ++ ((c!": ").map Piece.chr ++ ([Piece.fld c!"zsymam"] ++ ((c!" at ").map Piece.chr ++ ([Piece.fld c!"temperature"] ++ ((c!"'/\n").map Piece.chr ++ ([Piece.fld c!"mat"] ++ ((c!" ").map Piece.chr ++ ([Piece.fld c!"temperature"] ++ ((c!"\n1 1/\n/\n").map Piece.chr))))))))))))))))))))) := by rfl
  simp only [format, hp, render_chrs, render_chr, render_fld h_nendf, render_fld h_nacer_in, render_fld h_nace, render_fld h_ndir, render_fld h_ext, render_fld h_library, render_fld h_zsymam, render_fld h_temperature, render_fld h_mat]
  rfl

/-- `tErrorr33` with the values put in. -/
def xErrorr33 (nendf nerr_in nerr mat iwt_fluxweight temperature cov_ngroups cov_group_bounds : W) : W :=
  c!"\nerrorr / %%%%%%%%%%%%%%%%%%%%%%%%% Calc COV %%%%%%%%%%%%%%%%%%%%%%%%%%%%%%%%%%%%%%%%\n" ++ (nendf ++ (c!" 0 " ++ (nerr_in ++ (c!" " ++ (nerr ++ (c!"/\n" ++ (mat ++ (c!" 1 " ++ (iwt_fluxweight ++ (c!"/\n0 " ++ (temperature ++ (c!"/\n0 33/\n" ++ (cov_ngroups ++ (c!"/\n" ++ (cov_group_bounds ++ (c!"/\n"))))))))))))))))

theorem noBrace_xErrorr33 {nendf nerr_in nerr mat iwt_fluxweight temperature cov_ngroups cov_group_bounds : W} (h_nendf : NoBrace nendf) (h_nerr_in : NoBrace nerr_in) (h_nerr : NoBrace nerr) (h_mat : NoBrace mat) (h_iwt_fluxweight : NoBrace iwt_fluxweight) (h_temperature : NoBrace temperature) (h_cov_ngroups : NoBrace cov_ngroups) (h_cov_group_bounds : NoBrace cov_group_bounds) : NoBrace (xErrorr33 nendf nerr_in nerr mat iwt_fluxweight temperature cov_ngroups cov_group_bounds) :=
  noBrace_append (by decide +kernel) (noBrace_append h_nendf (noBrace_append (by decide +kernel) (noBrace_append h_nerr_in (noBrace_append (by decide +kernel) (noBrace_append h_nerr (noBrace_append (by decide +kernel) (noBrace_append h_mat (noBrace_append (by decide +kernel) (noBrace_append h_iwt_fluxweight (noBrace_append (by decide +kernel) (noBrace_append h_temperature (noBrace_append (by decide +kernel) (noBrace_append h_cov_ngroups (noBrace_append (by decide +kernel) (noBrace_append h_cov_group_bounds ((by decide +kernel)))))))))))))))))

theorem format_xErrorr33 {env : List (W × W)} {nendf nerr_in nerr mat iwt_fluxweight temperature cov_ngroups cov_group_bounds : W} (h_nendf : Dict.get? env c!"nendf" = some nendf) (h_nerr_in : Dict.get? env c!"nerr_in" = some nerr_in) (h_nerr : Dict.get? env c!"nerr" = some nerr) (h_mat : Dict.get? env c!"mat" = some mat) (h_iwt_fluxweight : Dict.get? env c!"iwt_fluxweight" = some iwt_fluxweight) (h_temperature : Dict.get? env c!"temperature" = some temperature) (h_cov_ngroups : Dict.get? env c!"cov_ngroups" = some cov_ngroups) (h_cov_group_bounds : Dict.get? env c!"cov_group_bounds" = some cov_group_bounds) : format env tErrorr33 = .ok (xErrorr33 nendf nerr_in nerr mat iwt_fluxweight temperature cov_ngroups cov_group_bounds) := by
  have hp : parse tErrorr33 = some ((c!"\nerrorr / %%%%%%%%%%%%%%%%%%%%%%%%% Calc COV %%%%%%%%%%%%%%%%%%%%%%%%%%%%%%%%%%%%%%%%\n").map Piece.chr ++ ([Piece.fld c!"nendf"] ++ ((c!" 0 ").map Piece.chr ++ ([Piece.fld c!"nerr_in"] ++ ((c!" ").map Piece.chr ++ ([Piece.fld c!"nerr"] ++ ((c!"/\n").map Piece.chr ++ ([Piece.fld c!"mat"] ++ ((c!" 1 ").map Piece.chr ++ ([Piece.fld c!"iwt_fluxweight"] ++ ((c!"/\n0 ").map Piece.chr ++ ([Piece.fld c!"temperature"] ++ ((c!"/\n0 33/\n").map Piece.chr ++ ([Piece.fld c!"cov_ngroups"] ++ ((c!"/\n").map Piece.chr ++ ([Piece.fld c!"cov_group_bounds"] ++ ((c!"/\n").map Piece.chr))))))))))))))))) := by rfl
  simp only [format, hp, render_chrs, render_chr, render_fld h_nendf, render_fld h_nerr_in, render_fld h_nerr, render_fld h_mat, render_fld h_iwt_fluxweight, render_fld h_temperature, render_fld h_cov_ngroups, render_fld h_cov_group_bounds]
  rfl

/-- `tErrorr31` with the values put in. -/
def xErrorr31 (nendf nerr_in ngroupr_out nerr mat iwt_fluxweight temperature cov_ngroups cov_group_bounds : W) : W :=
  c!"\nerrorr / %%%%%%%%%%%%%%%%%%%%%%%%% Calc COV %%%%%%%%%%%%%%%%%%%%%%%%%%%%%%%%%%%%%%%%\n" ++ (nendf ++ (c!" " ++ (nerr_in ++ (c!" " ++ (ngroupr_out ++ (c!" " ++ (nerr ++ (c!"/\n" ++ (mat ++ (c!" 1 " ++ (iwt_fluxweight ++ (c!"/ group struct, weight function\n1 " ++ (temperature ++ (c!"/\n0 31 1 1 -1/\n" ++ (cov_ngroups ++ (c!"/\n" ++ (cov_group_bounds ++ (c!"/\n"))))))))))))))))))

theorem noBrace_xErrorr31 {nendf nerr_in ngroupr_out nerr mat iwt_fluxweight temperature cov_ngroups cov_group_bounds : W} (h_nendf : NoBrace nendf) (h_nerr_in : NoBrace nerr_in) (h_ngroupr_out : NoBrace ngroupr_out) (h_nerr : NoBrace nerr) (h_mat : NoBrace mat) (h_iwt_fluxweight : NoBrace iwt_fluxweight) (h_temperature : NoBrace temperature) (h_cov_ngroups : NoBrace cov_ngroups) (h_cov_group_bounds : NoBrace cov_group_bounds) : NoBrace (xErrorr31 nendf nerr_in ngroupr_out nerr mat iwt_fluxweight temperature cov_ngroups cov_group_bounds) :=
  noBrace_append (by decide +kernel) (noBrace_append h_nendf (noBrace_append (by decide +kernel) (noBrace_append h_nerr_in (noBrace_append (by decide +kernel) (noBrace_append h_ngroupr_out (noBrace_append (by decide +kernel) (noBrace_append h_nerr (noBrace_append (by decide +kernel) (noBrace_append h_mat (noBrace_append (by decide +kernel) (noBrace_append h_iwt_fluxweight (noBrace_append (by decide +kernel) (noBrace_append h_temperature (noBrace_append (by decide +kernel) (noBrace_append h_cov_ngroups (noBrace_append (by decide +kernel) (noBrace_append h_cov_group_bounds ((by decide +kernel)))))))))))))))))))

theorem format_xErrorr31 {env : List (W × W)} {nendf nerr_in ngroupr_out nerr mat iwt_fluxweight temperature cov_ngroups cov_group_bounds : W} (h_nendf : Dict.get? env c!"nendf" = some nendf) (h_nerr_in : Dict.get? env c!"nerr_in" = some nerr_in) (h_ngroupr_out : Dict.get? env c!"ngroupr_out" = some ngroupr_out) (h_nerr : Dict.get? env c!"nerr" = some nerr) (h_mat : Dict.get? env c!"mat" = some mat) (h_iwt_fluxweight : Dict.get? env c!"iwt_fluxweight" = some iwt_fluxweight) (h_temperature : Dict.get? env c!"temperature" = some temperature) (h_cov_ngroups : Dict.get? env c!"cov_ngroups" = some cov_ngroups) (h_cov_group_bounds : Dict.get? env c!"cov_group_bounds" = some cov_group_bounds) : format env tErrorr31 = .ok (xErrorr31 nendf nerr_in ngroupr_out nerr mat iwt_fluxweight temperature cov_ngroups cov_group_bounds) := by
  have hp : parse tErrorr31 = some ((c!"\nerrorr / %%%%%%%%%%%%%%%%%%%%%%%%% Calc COV %%%%%%%%%%%%%%%%%%%%%%%%%%%%%%%%%%%%%%%%\n").map Piece.chr ++ ([Piece.fld c!"nendf"] ++ ((c!" ").map Piece.chr ++ ([Piece.fld c!"nerr_in"] ++ ((c!" ").map Piece.chr ++ ([Piece.fld c!"ngroupr_out"] ++ ((c!" ").map Piece.chr ++ ([Piece.fld c!"nerr"] ++ ((c!"/\n").map Piece.chr ++ ([Piece.fld c!"mat"] ++ ((c!" 1 ").map Piece.chr ++ ([Piece.fld c!"iwt_fluxweight"] ++ ((c!"/ group struct, weight function\n1 ").map Piece.chr ++ ([Piece.fld c!"temperature"] ++ ((c!"/\n0 31 1 1 -1/\n").map Piece.chr ++ ([Piece.fld c!"cov_ngroups"] ++ ((c!"/\n").map Piece.chr ++ ([Piece.fld c!"cov_group_bounds"] ++ ((c!"/\n").map Piece.chr))))))))))))))))))) := by rfl
  simp only [format, hp, render_chrs, render_chr, render_fld h_nendf, render_fld h_nerr_in, render_fld h_ngroupr_out, render_fld h_nerr, render_fld h_mat, render_fld h_iwt_fluxweight, render_fld h_temperature, render_fld h_cov_ngroups, render_fld h_cov_group_bounds]
  rfl

/-- `tErrorr35` with the values put in. -/
def xErrorr35 (nendf nerr_in ngroupr_out nerr mat iwt_fluxweight temperature cov_ngroups cov_group_bounds : W) : W :=
  c!"\nerrorr / %%%%%%%%%%%%%%%%%%%%%%%%% Calc COV %%%%%%%%%%%%%%%%%%%%%%%%%%%%%%%%%%%%%%%%\n" ++ (nendf ++ (c!" " ++ (nerr_in ++ (c!" " ++ (ngroupr_out ++ (c!" " ++ (nerr ++ (c!"/\n" ++ (mat ++ (c!" 1 " ++ (iwt_fluxweight ++ (c!"/ group struct, weight function\n1 " ++ (temperature ++ (c!"/\n0 35 1 1 -1/\n" ++ (cov_ngroups ++ (c!"/\n" ++ (cov_group_bounds ++ (c!"/\n"))))))))))))))))))

theorem noBrace_xErrorr35 {nendf nerr_in ngroupr_out nerr mat iwt_fluxweight temperature cov_ngroups cov_group_bounds : W} (h_nendf : NoBrace nendf) (h_nerr_in : NoBrace nerr_in) (h_ngroupr_out : NoBrace ngroupr_out) (h_nerr : NoBrace nerr) (h_mat : NoBrace mat) (h_iwt_fluxweight : NoBrace iwt_fluxweight) (h_temperature : NoBrace temperature) (h_cov_ngroups : NoBrace cov_ngroups) (h_cov_group_bounds : NoBrace cov_group_bounds) : NoBrace (xErrorr35 nendf nerr_in ngroupr_out nerr mat iwt_fluxweight temperature cov_ngroups cov_group_bounds) :=
  noBrace_append (by decide +kernel) (noBrace_append h_nendf (noBrace_append (by decide +kernel) (noBrace_append h_nerr_in (noBrace_append (by decide +kernel) (noBrace_append h_ngroupr_out (noBrace_append (by decide +kernel) (noBrace_append h_nerr (noBrace_append (by decide +kernel) (noBrace_append h_mat (noBrace_append (by decide +kernel) (noBrace_append h_iwt_fluxweight (noBrace_append (by decide +kernel) (noBrace_append h_temperature (noBrace_append (by decide +kernel) (noBrace_append h_cov_ngroups (noBrace_append (by decide +kernel) (noBrace_append h_cov_group_bounds ((by decide +kernel)))))))))))))))))))

theorem format_xErrorr35 {env : List (W × W)} {nendf nerr_in ngroupr_out nerr mat iwt_fluxweight temperature cov_ngroups cov_group_bounds : W} (h_nendf : Dict.get? env c!"nendf" = some nendf) (h_nerr_in : Dict.get? env c!"nerr_in" = some nerr_in) (h_ngroupr_out : Dict.get? env c!"ngroupr_out" = some ngroupr_out) (h_nerr : Dict.get? env c!"nerr" = some nerr) (h_mat : Dict.get? env c!"mat" = some mat) (h_iwt_fluxweight : Dict.get? env c!"iwt_fluxweight" = some iwt_fluxweight) (h_temperature : Dict.get? env c!"temperature" = some temperature) (h_cov_ngroups : Dict.get? env c!"cov_ngroups" = some cov_ngroups) (h_cov_group_bounds : Dict.get? env c!"cov_group_bounds" = some cov_group_bounds) : format env tErrorr35 = .ok (xErrorr35 nendf nerr_in ngroupr_out nerr mat iwt_fluxweight temperature cov_ngroups cov_group_bounds) := by
  have hp : parse tErrorr35 = some ((c!"\nerrorr / %%%%%%%%%%%%%%%%%%%%%%%%% Calc COV %%%%%%%%%%%%%%%%%%%%%%%%%%%%%%%%%%%%%%%%\n").map Piece.chr ++ ([Piece.fld c!"nendf"] ++ ((c!" ").map Piece.chr ++ ([Piece.fld c!"nerr_in"] ++ ((c!" ").map Piece.chr ++ ([Piece.fld c!"ngroupr_out"] ++ ((c!" ").map Piece.chr ++ ([Piece.fld c!"nerr"] ++ ((c!"/\n").map Piece.chr ++ ([Piece.fld c!"mat"] ++ ((c!" 1 ").map Piece.chr ++ ([Piece.fld c!"iwt_fluxweight"] ++ ((c!"/ group struct, weight function\n1 ").map Piece.chr ++ ([Piece.fld c!"temperature"] ++ ((c!"/\n0 35 1 1 -1/\n").map Piece.chr ++ ([Piece.fld c!"cov_ngroups"] ++ ((c!"/\n").map Piece.chr ++ ([Piece.fld c!"cov_group_bounds"] ++ ((c!"/\n").map Piece.chr))))))))))))))))))) := by rfl
  simp only [format, hp, render_chrs, render_chr, render_fld h_nendf, render_fld h_nerr_in, render_fld h_ngroupr_out, render_fld h_nerr, render_fld h_mat, render_fld h_iwt_fluxweight, render_fld h_temperature, render_fld h_cov_ngroups, render_fld h_cov_group_bounds]
  rfl

/-- `tCovrLib` with the values put in. -/
def xCovrLib (nerr covr_out mat : W) : W :=
  c!"\ncovr / %%%%%%%%%%%%%%%%%%%%%%%%% Create Cov Info (DATA) %%%%%%%%%%%%%%%%%%%%%%%%%%%%\n" ++ (nerr ++ (c!" " ++ (covr_out ++ (c!"/\n3/\ncorr/\n/\n" ++ (mat ++ (c!"/\n"))))))

theorem noBrace_xCovrLib {nerr covr_out mat : W} (h_nerr : NoBrace nerr) (h_covr_out : NoBrace covr_out) (h_mat : NoBrace mat) : NoBrace (xCovrLib nerr covr_out mat) :=
  noBrace_append (by decide +kernel) (noBrace_append h_nerr (noBrace_append (by decide +kernel) (noBrace_append h_covr_out (noBrace_append (by decide +kernel) (noBrace_append h_mat ((by decide +kernel)))))))

theorem format_xCovrLib {env : List (W × W)} {nerr covr_out mat : W} (h_nerr : Dict.get? env c!"nerr" = some nerr) (h_covr_out : Dict.get? env c!"covr_out" = some covr_out) (h_mat : Dict.get? env c!"mat" = some mat) : format env tCovrLib = .ok (xCovrLib nerr covr_out mat) := by
  have hp : parse tCovrLib = some ((c!"\ncovr / %%%%%%%%%%%%%%%%%%%%%%%%% Create Cov Info (DATA) %%%%%%%%%%%%%%%%%%%%%%%%%%%%\n").map Piece.chr ++ ([Piece.fld c!"nerr"] ++ ((c!" ").map Piece.chr ++ ([Piece.fld c!"covr_out"] ++ ((c!"/\n3/\ncorr/\n/\n").map Piece.chr ++ ([Piece.fld c!"mat"] ++ ((c!"/\n").map Piece.chr))))))) := by rfl
  simp only [format, hp, render_chrs, render_chr, render_fld h_nerr, render_fld h_covr_out, render_fld h_mat]
  rfl

/-- `tViewr` with the values put in. -/
def xViewr (covr_plot_out viewr_plot_out : W) : W :=
  c!"\nviewr / %%%%%%%%%%%%%%%%%%%%%%%%% Create Plots %%%%%%%%%%%%%%%%%%%%%%%%%%%%%%%\n" ++ (covr_plot_out ++ (c!" " ++ (viewr_plot_out ++ (c!"/\n"))))

theorem noBrace_xViewr {covr_plot_out viewr_plot_out : W} (h_covr_plot_out : NoBrace covr_plot_out) (h_viewr_plot_out : NoBrace viewr_plot_out) : NoBrace (xViewr covr_plot_out viewr_plot_out) :=
  noBrace_append (by decide +kernel) (noBrace_append h_covr_plot_out (noBrace_append (by decide +kernel) (noBrace_append h_viewr_plot_out ((by decide +kernel)))))

theorem format_xViewr {env : List (W × W)} {covr_plot_out viewr_plot_out : W} (h_covr_plot_out : Dict.get? env c!"covr_plot_out" = some covr_plot_out) (h_viewr_plot_out : Dict.get? env c!"viewr_plot_out" = some viewr_plot_out) : format env tViewr = .ok (xViewr covr_plot_out viewr_plot_out) := by
  have hp : parse tViewr = some ((c!"\nviewr / %%%%%%%%%%%%%%%%%%%%%%%%% Create Plots %%%%%%%%%%%%%%%%%%%%%%%%%%%%%%%\n").map Piece.chr ++ ([Piece.fld c!"covr_plot_out"] ++ ((c!" ").map Piece.chr ++ ([Piece.fld c!"viewr_plot_out"] ++ ((c!"/\n").map Piece.chr))))) := by rfl
  simp only [format, hp, render_chrs, render_chr, render_fld h_covr_plot_out, render_fld h_viewr_plot_out]
  rfl

/-- `tThermr` with the values put in. -/
def xThermr (nthermr1_in nthermr1 mat num_temp iform temps error energy_max nthermal_endf nthermr2_in nthermr2 mat_thermal inelastic elastic natom : W) : W :=
  c!"\nthermr / %%%%%%%%%%%%%%%% Add thermal scattering data (free gas) %%%%%%%%%%%%%%%\n" ++ (c!"0 " ++ (nthermr1_in ++ (c!" " ++ (nthermr1 ++ (c!"\n0 " ++ (mat ++ (c!" 12 " ++ (num_temp ++ (c!" 1 0 " ++ (iform ++ (c!" 1 221 1/\n" ++ (temps ++ (c!"\n" ++ (error ++ (c!" " ++ (energy_max ++ (c!"\nthermr / %%%%%%%%%%%%%%%% Add thermal scattering data (bound) %%%%%%%%%%%%%%%%%%\n" ++ (nthermal_endf ++ (c!" " ++ (nthermr2_in ++ (c!" " ++ (nthermr2 ++ (c!"\n" ++ (mat_thermal ++ (c!" " ++ (mat ++ (c!" 16 " ++ (num_temp ++ (c!" " ++ (inelastic ++ (c!" " ++ (elastic ++ (c!" " ++ (iform ++ (c!" " ++ (natom ++ (c!" 222 1/\n" ++ (temps ++ (c!"\n" ++ (error ++ (c!" " ++ (energy_max ++ (c!"\n")))))))))))))))))))))))))))))))))))))))))))

theorem noBrace_xThermr {nthermr1_in nthermr1 mat num_temp iform temps error energy_max nthermal_endf nthermr2_in nthermr2 mat_thermal inelastic elastic natom : W} (h_nthermr1_in : NoBrace nthermr1_in) (h_nthermr1 : NoBrace nthermr1) (h_mat : NoBrace mat) (h_num_temp : NoBrace num_temp) (h_iform : NoBrace iform) (h_temps : NoBrace temps) (h_error : NoBrace error) (h_energy_max : NoBrace energy_max) (h_nthermal_endf : NoBrace nthermal_endf) (h_nthermr2_in : NoBrace nthermr2_in) (h_nthermr2 : NoBrace nthermr2) (h_mat_thermal : NoBrace mat_thermal) (h_inelastic : NoBrace inelastic) (h_elastic : NoBrace elastic) (h_natom : NoBrace natom) : NoBrace (xThermr nthermr1_in nthermr1 mat num_temp iform temps error energy_max nthermal_endf nthermr2_in nthermr2 mat_thermal inelastic elastic natom) :=
  noBrace_append (by decide +kernel) (noBrace_append (by decide +kernel) (noBrace_append h_nthermr1_in (noBrace_append (by decide +kernel) (noBrace_append h_nthermr1 (noBrace_append (by decide +kernel) (noBrace_append h_mat (noBrace_append (by decide +kernel) (noBrace_append h_num_temp (noBrace_append (by decide +kernel) (noBrace_append h_iform (noBrace_append (by decide +kernel) (noBrace_append h_temps (noBrace_append (by decide +kernel) (noBrace_append h_error (noBrace_append (by decide +kernel) (noBrace_append h_energy_max (noBrace_append (by decide +kernel) (noBrace_append h_nthermal_endf (noBrace_append (by decide +kernel) (noBrace_append h_nthermr2_in (noBrace_append (by decide +kernel) (noBrace_append h_nthermr2 (noBrace_append (by decide +kernel) (noBrace_append h_mat_thermal (noBrace_append (by decide +kernel) (noBrace_append h_mat (noBrace_append (by decide +kernel) (noBrace_append h_num_temp (noBrace_append (by decide +kernel) (noBrace_append h_inelastic (noBrace_append (by decide +kernel) (noBrace_append h_elastic (noBrace_append (by decide +kernel) (noBrace_append h_iform (noBrace_append (by decide +kernel) (noBrace_append h_natom (noBrace_append (by decide +kernel) (noBrace_append h_temps (noBrace_append (by decide +kernel) (noBrace_append h_error (noBrace_append (by decide +kernel) (noBrace_append h_energy_max ((by decide +kernel))))))))))))))))))))))))))))))))))))))))))))

theorem format_xThermr {env : List (W × W)} {nthermr1_in nthermr1 mat num_temp iform temps error energy_max nthermal_endf nthermr2_in nthermr2 mat_thermal inelastic elastic natom : W} (h_nthermr1_in : Dict.get? env c!"nthermr1_in" = some nthermr1_in) (h_nthermr1 : Dict.get? env c!"nthermr1" = some nthermr1) (h_mat : Dict.get? env c!"mat" = some mat) (h_num_temp : Dict.get? env c!"num_temp" = some num_temp) (h_iform : Dict.get? env c!"iform" = some iform) (h_temps : Dict.get? env c!"temps" = some temps) (h_error : Dict.get? env c!"error" = some error) (h_energy_max : Dict.get? env c!"energy_max" = some energy_max) (h_nthermal_endf : Dict.get? env c!"nthermal_endf" = some nthermal_endf) (h_nthermr2_in : Dict.get? env c!"nthermr2_in" = some nthermr2_in) (h_nthermr2 : Dict.get? env c!"nthermr2" = some nthermr2) (h_mat_thermal : Dict.get? env c!"mat_thermal" = some mat_thermal) (h_inelastic : Dict.get? env c!"inelastic" = some inelastic) (h_elastic : Dict.get? env c!"elastic" = some elastic) (h_natom : Dict.get? env c!"natom" = some natom) : format env tThermr = .ok (xThermr nthermr1_in nthermr1 mat num_temp iform temps error energy_max nthermal_endf nthermr2_in nthermr2 mat_thermal inelastic elastic natom) := by
  have hp : parse tThermr = some ((c!"\nthermr / %%%%%%%%%%%%%%%% Add thermal scattering data (free gas) %%%%%%%%%%%%%%%\n").map Piece.chr ++ ((c!"0 ").map Piece.chr ++ ([Piece.fld c!"nthermr1_in"] ++ ((c!" ").map Piece.chr ++ ([Piece.fld c!"nthermr1"] ++ ((c!"\n0 ").map Piece.chr ++ ([Piece.fld c!"mat"] ++ ((c!" 12 ").map Piece.chr ++ ([Piece.fld c!"num_temp"] ++ ((c!" 1 0 ").map Piece.chr ++ ([Piece.fld c!"iform"] ++ ((c!" 1 221 1/\n").map Piece.chr ++ ([Piece.fld c!"temps"] ++ ((c!"\n").map Piece.chr ++ ([Piece.fld c!"error"] ++ ((c!" ").map Piece.chr ++ ([Piece.fld c!"energy_max"] ++ ((c!"\nthermr / %%%%%%%%%%%%%%%% Add thermal scattering data (bound) %%%%%%%%%%%%%%%%%%\n").map Piece.chr ++ ([Piece.fld c!"nthermal_endf"] ++ ((c!" ").map Piece.chr ++ ([Piece.fld c!"nthermr2_in"] ++ ((c!" ").map Piece.chr ++ ([Piece.fld c!"nthermr2"] ++ ((c!"\n").map Piece.chr ++ ([Piece.fld c!"mat_thermal"] ++ ((c!" ").map Piece.chr ++ ([Piece.fld c!"mat"] ++ ((c!" 16 ").map Piece.chr ++ ([Piece.fld c!"num_temp"] ++ ((c!" ").map Piece.chr ++ ([Piece.fld c!"inelastic"] ++ ((c!" ").map Piece.chr ++ ([Piece.fld c!"elastic"] ++ ((c!" ").map Piece.chr ++ ([Piece.fld c!"iform"] ++ ((c!" ").map Piece.chr ++ ([Piece.fld c!"natom"] ++ ((c!" 222 1/\n").map Piece.chr ++ ([Piece.fld c!"temps"] ++ ((c!"\n").map Piece.chr ++ ([Piece.fld c!"error"] ++ ((c!" ").map Piece.chr ++ ([Piece.fld c!"energy_max"] ++ ((c!"\n").map Piece.chr)))))))))))))))))))))))))))))))))))))))))))) := by rfl
  simp only [format, hp, render_chrs, render_chr, render_fld h_nthermr1_in, render_fld h_nthermr1, render_fld h_mat, render_fld h_num_temp, render_fld h_iform, render_fld h_temps, render_fld h_error, render_fld h_energy_max, render_fld h_nthermal_endf, render_fld h_nthermr2_in, render_fld h_nthermr2, render_fld h_mat_thermal, render_fld h_inelastic, render_fld h_elastic, render_fld h_natom]
  rfl

/-- `tThermalAcer` with the values put in. -/
def xThermalAcer (nendf nthermal_acer_in nace ndir ext library zsymam_thermal mat temperature data_name zaids mt_elastic elastic_type data_nmix energy_max : W) : W :=
  c!"\nacer / %%%%%%%%%%%%%%%%%%%%%%%% Write out in ACE format %%%%%%%%%%%%%%%%%%%%%%%%\n" ++ (nendf ++ (c!" " ++ (nthermal_acer_in ++ (c!" 0 " ++ (nace ++ (c!" " ++ (ndir ++ (c!"\n2 0 1 ." ++ (ext ++ (c!"/\n'" ++ (library ++ (c!": " ++ (zsymam_thermal ++ (c!" processed by NJOY'/\n" ++ (mat ++ (c!" " ++ (temperature ++ (c!" '" ++ (data_name ++ (c!"' /\n" ++ (zaids ++ (c!" /\n222 64 " ++ (mt_elastic ++ (c!" " ++ (elastic_type ++ (c!" " ++ (data_nmix ++ (c!" " ++ (energy_max ++ (c!" 2/\n"))))))))))))))))))))))))))))))

theorem noBrace_xThermalAcer {nendf nthermal_acer_in nace ndir ext library zsymam_thermal mat temperature data_name zaids mt_elastic elastic_type data_nmix energy_max : W} (h_nendf : NoBrace nendf) (h_nthermal_acer_in : NoBrace nthermal_acer_in) (h_nace : NoBrace nace) (h_ndir : NoBrace ndir) (h_ext : NoBrace ext) (h_library : NoBrace library) (h_zsymam_thermal : NoBrace zsymam_thermal) (h_mat : NoBrace mat) (h_temperature : NoBrace temperature) (h_data_name : NoBrace data_name) (h_zaids : NoBrace zaids) (h_mt_elastic : NoBrace mt_elastic) (h_elastic_type : NoBrace elastic_type) (h_data_nmix : NoBrace data_nmix) (h_energy_max : NoBrace energy_max) : NoBrace (xThermalAcer nendf nthermal_acer_in nace ndir ext library zsymam_thermal mat temperature data_name zaids mt_elastic elastic_type data_nmix energy_max) :=
  noBrace_append (by decide +kernel) (noBrace_append h_nendf (noBrace_append (by decide +kernel) (noBrace_append h_nthermal_acer_in (noBrace_append (by decide +kernel) (noBrace_append h_nace (noBrace_append (by decide +kernel) (noBrace_append h_ndir (noBrace_append (by decide +kernel) (noBrace_append h_ext (noBrace_append (by decide +kernel) (noBrace_append h_library (noBrace_append (by decide +kernel) (noBrace_append h_zsymam_thermal (noBrace_append (by decide +kernel) (noBrace_append h_mat (noBrace_append (by decide +kernel) (noBrace_append h_temperature (noBrace_append (by decide +kernel) (noBrace_append h_data_name (noBrace_append (by decide +kernel) (noBrace_append h_zaids (noBrace_append (by decide +kernel) (noBrace_append h_mt_elastic (noBrace_append (by decide +kernel) (noBrace_append h_elastic_type (noBrace_append (by decide +kernel) (noBrace_append h_data_nmix (noBrace_append (by decide +kernel) (noBrace_append h_energy_max ((by decide +kernel)))))))))))))))))))))))))))))))

theorem format_xThermalAcer {env : List (W × W)} {nendf nthermal_acer_in nace ndir ext library zsymam_thermal mat temperature data_name zaids mt_elastic elastic_type data_nmix energy_max : W} (h_nendf : Dict.get? env c!"nendf" = some nendf) (h_nthermal_acer_in : Dict.get? env c!"nthermal_acer_in" = some nthermal_acer_in) (h_nace : Dict.get? env c!"nace" = some nace) (h_ndir : Dict.get? env c!"ndir" = some ndir) (h_ext : Dict.get? env c!"ext" = some ext) (h_library : Dict.get? env c!"library" = some library) (h_zsymam_thermal : Dict.get? env c!"zsymam_thermal" = some zsymam_thermal) (h_mat : Dict.get? env c!"mat" = some mat) (h_temperature : Dict.get? env c!"temperature" = some temperature) (h_data_name : Dict.get? env c!"data.name" = some data_name) (h_zaids : Dict.get? env c!"zaids" = some zaids) (h_mt_elastic : Dict.get? env c!"mt_elastic" = some mt_elastic) (h_elastic_type : Dict.get? env c!"elastic_type" = some elastic_type) (h_data_nmix : Dict.get? env c!"data.nmix" = some data_nmix) (h_energy_max : Dict.get? env c!"energy_max" = some energy_max) : format env tThermalAcer = .ok (xThermalAcer nendf nthermal_acer_in nace ndir ext library zsymam_thermal mat temperature data_name zaids mt_elastic elastic_type data_nmix energy_max) := by
  have hp : parse tThermalAcer = some ((c!"\nacer / %%%%%%%%%%%%%%%%%%%%%%%% Write out in ACE format %%%%%%%%%%%%%%%%%%%%%%%%\n").map Piece.chr ++ ([Piece.fld c!"nendf"] ++ ((c!" ").map Piece.chr ++ ([Piece.fld c!"nthermal_acer_in"] ++ ((c!" 0 ").map Piece.chr ++ ([Piece.fld c!"nace"] ++ ((c!" ").map Piece.chr ++ ([Piece.fld c!"ndir"] ++ ((c!"\n2 0 1 .").map Piece.chr ++ ([Piece.fld c!"ext"] ++ ((c!"/\n'").map Piece.chr ++ ([Piece.fld c!"library"] ++ ((c!": ").map Piece.chr ++ ([Piece.fld c!"zsymam_thermal"] ++ ((c!" processed by NJOY'/\n").map Piece.chr ++ ([Piece.fld c!"mat"] ++ ((c!" ").map Piece.chr ++ ([Piece.fld c!"temperature"] ++ ((c!" '").map Piece.chr ++ ([Piece.fld c!"data.name"] ++ ((c!"' /\n").map Piece.chr ++ ([Piece.fld c!"zaids"] ++ ((c!" /\n222 64 ").map Piece.chr ++ ([Piece.fld c!"mt_elastic"] ++ ((c!" ").map Piece.chr ++ ([Piece.fld c!"elastic_type"] ++ ((c!" ").map Piece.chr ++ ([Piece.fld c!"data.nmix"] ++ ((c!" ").map Piece.chr ++ ([Piece.fld c!"energy_max"] ++ ((c!" 2/\n").map Piece.chr))))))))))))))))))))))))))))))) := by rfl
  simp only [format, hp, render_chrs, render_chr, render_fld h_nendf, render_fld h_nthermal_acer_in, render_fld h_nace, render_fld h_ndir, render_fld h_ext, render_fld h_library, render_fld h_zsymam_thermal, render_fld h_mat, render_fld h_temperature, render_fld h_data_name, render_fld h_zaids, render_fld h_mt_elastic, render_fld h_elastic_type, render_fld h_data_nmix, render_fld h_energy_max]
  rfl

/-- `tGrouprNuHead` with the values put in. -/
def xGrouprNu (nendf ngroupr_in ngroupr_out mat iwt_fluxweight num_temp temps cov_ngroups cov_group_bounds : W) : W :=
  c!"\ngroupr\n" ++ (nendf ++ (c!" " ++ (ngroupr_in ++ (c!" 0 " ++ (ngroupr_out ++ (c!"/\n" ++ (mat ++ (c!" 1 0 " ++ (iwt_fluxweight ++ (c!" 1 " ++ (num_temp ++ (c!"/ user groups, weight flux\nnu and chi / \n" ++ (temps ++ (c!"/\n1e10/ background sigma (need to include \"inf\")\n" ++ (cov_ngroups ++ (c!"/\n" ++ (cov_group_bounds ++ (c!"/"))))))))))))))))))

theorem noBrace_xGrouprNu {nendf ngroupr_in ngroupr_out mat iwt_fluxweight num_temp temps cov_ngroups cov_group_bounds : W} (h_nendf : NoBrace nendf) (h_ngroupr_in : NoBrace ngroupr_in) (h_ngroupr_out : NoBrace ngroupr_out) (h_mat : NoBrace mat) (h_iwt_fluxweight : NoBrace iwt_fluxweight) (h_num_temp : NoBrace num_temp) (h_temps : NoBrace temps) (h_cov_ngroups : NoBrace cov_ngroups) (h_cov_group_bounds : NoBrace cov_group_bounds) : NoBrace (xGrouprNu nendf ngroupr_in ngroupr_out mat iwt_fluxweight num_temp temps cov_ngroups cov_group_bounds) :=
  noBrace_append (by decide +kernel) (noBrace_append h_nendf (noBrace_append (by decide +kernel) (noBrace_append h_ngroupr_in (noBrace_append (by decide +kernel) (noBrace_append h_ngroupr_out (noBrace_append (by decide +kernel) (noBrace_append h_mat (noBrace_append (by decide +kernel) (noBrace_append h_iwt_fluxweight (noBrace_append (by decide +kernel) (noBrace_append h_num_temp (noBrace_append (by decide +kernel) (noBrace_append h_temps (noBrace_append (by decide +kernel) (noBrace_append h_cov_ngroups (noBrace_append (by decide +kernel) (noBrace_append h_cov_group_bounds ((by decide +kernel)))))))))))))))))))

theorem format_xGrouprNu {env : List (W × W)} {nendf ngroupr_in ngroupr_out mat iwt_fluxweight num_temp temps cov_ngroups cov_group_bounds : W} (h_nendf : Dict.get? env c!"nendf" = some nendf) (h_ngroupr_in : Dict.get? env c!"ngroupr_in" = some ngroupr_in) (h_ngroupr_out : Dict.get? env c!"ngroupr_out" = some ngroupr_out) (h_mat : Dict.get? env c!"mat" = some mat) (h_iwt_fluxweight : Dict.get? env c!"iwt_fluxweight" = some iwt_fluxweight) (h_num_temp : Dict.get? env c!"num_temp" = some num_temp) (h_temps : Dict.get? env c!"temps" = some temps) (h_cov_ngroups : Dict.get? env c!"cov_ngroups" = some cov_ngroups) (h_cov_group_bounds : Dict.get? env c!"cov_group_bounds" = some cov_group_bounds) : format env tGrouprNuHead = .ok (xGrouprNu nendf ngroupr_in ngroupr_out mat iwt_fluxweight num_temp temps cov_ngroups cov_group_bounds) := by
  have hp : parse tGrouprNuHead = some ((c!"\ngroupr\n").map Piece.chr ++ ([Piece.fld c!"nendf"] ++ ((c!" ").map Piece.chr ++ ([Piece.fld c!"ngroupr_in"] ++ ((c!" 0 ").map Piece.chr ++ ([Piece.fld c!"ngroupr_out"] ++ ((c!"/\n").map Piece.chr ++ ([Piece.fld c!"mat"] ++ ((c!" 1 0 ").map Piece.chr ++ ([Piece.fld c!"iwt_fluxweight"] ++ ((c!" 1 ").map Piece.chr ++ ([Piece.fld c!"num_temp"] ++ ((c!"/ user groups, weight flux\nnu and chi / \n").map Piece.chr ++ ([Piece.fld c!"temps"] ++ ((c!"/\n1e10/ background sigma (need to include \"inf\")\n").map Piece.chr ++ ([Piece.fld c!"cov_ngroups"] ++ ((c!"/\n").map Piece.chr ++ ([Piece.fld c!"cov_group_bounds"] ++ ((c!"/").map Piece.chr))))))))))))))))))) := by rfl
  simp only [format, hp, render_chrs, render_chr, render_fld h_nendf, render_fld h_ngroupr_in, render_fld h_ngroupr_out, render_fld h_mat, render_fld h_iwt_fluxweight, render_fld h_num_temp, render_fld h_temps, render_fld h_cov_ngroups, render_fld h_cov_group_bounds]
  rfl

/-- `tGrouprHead` with the values put in. -/
def xGroupr (nendf ngroupr_in ngroupr_out mat iwt_fluxweight num_temp temps cov_ngroups cov_group_bounds : W) : W :=
  c!"\ngroupr / %%%%%%%%%%%%%%%%%%%%%%%% Create shielded xsec %%%%%%%%%%%%%%%%%%%%%%%%%\n" ++ (nendf ++ (c!" " ++ (ngroupr_in ++ (c!" 0 " ++ (ngroupr_out ++ (c!"/\n" ++ (mat ++ (c!" 1 0 " ++ (iwt_fluxweight ++ (c!" 1 " ++ (num_temp ++ (c!"/ user groups, weight flux\nxsec / \n" ++ (temps ++ (c!"/\n1e10/ background sigma (need to include \"inf\")/\n" ++ (cov_ngroups ++ (c!"/\n" ++ (cov_group_bounds ++ (c!"/\n"))))))))))))))))))

theorem noBrace_xGroupr {nendf ngroupr_in ngroupr_out mat iwt_fluxweight num_temp temps cov_ngroups cov_group_bounds : W} (h_nendf : NoBrace nendf) (h_ngroupr_in : NoBrace ngroupr_in) (h_ngroupr_out : NoBrace ngroupr_out) (h_mat : NoBrace mat) (h_iwt_fluxweight : NoBrace iwt_fluxweight) (h_num_temp : NoBrace num_temp) (h_temps : NoBrace temps) (h_cov_ngroups : NoBrace cov_ngroups) (h_cov_group_bounds : NoBrace cov_group_bounds) : NoBrace (xGroupr nendf ngroupr_in ngroupr_out mat iwt_fluxweight num_temp temps cov_ngroups cov_group_bounds) :=
  noBrace_append (by decide +kernel) (noBrace_append h_nendf (noBrace_append (by decide +kernel) (noBrace_append h_ngroupr_in (noBrace_append (by decide +kernel) (noBrace_append h_ngroupr_out (noBrace_append (by decide +kernel) (noBrace_append h_mat (noBrace_append (by decide +kernel) (noBrace_append h_iwt_fluxweight (noBrace_append (by decide +kernel) (noBrace_append h_num_temp (noBrace_append (by decide +kernel) (noBrace_append h_temps (noBrace_append (by decide +kernel) (noBrace_append h_cov_ngroups (noBrace_append (by decide +kernel) (noBrace_append h_cov_group_bounds ((by decide +kernel)))))))))))))))))))

theorem format_xGroupr {env : List (W × W)} {nendf ngroupr_in ngroupr_out mat iwt_fluxweight num_temp temps cov_ngroups cov_group_bounds : W} (h_nendf : Dict.get? env c!"nendf" = some nendf) (h_ngroupr_in : Dict.get? env c!"ngroupr_in" = some ngroupr_in) (h_ngroupr_out : Dict.get? env c!"ngroupr_out" = some ngroupr_out) (h_mat : Dict.get? env c!"mat" = some mat) (h_iwt_fluxweight : Dict.get? env c!"iwt_fluxweight" = some iwt_fluxweight) (h_num_temp : Dict.get? env c!"num_temp" = some num_temp) (h_temps : Dict.get? env c!"temps" = some temps) (h_cov_ngroups : Dict.get? env c!"cov_ngroups" = some cov_ngroups) (h_cov_group_bounds : Dict.get? env c!"cov_group_bounds" = some cov_group_bounds) : format env tGrouprHead = .ok (xGroupr nendf ngroupr_in ngroupr_out mat iwt_fluxweight num_temp temps cov_ngroups cov_group_bounds) := by
  have hp : parse tGrouprHead = some ((c!"\ngroupr / %%%%%%%%%%%%%%%%%%%%%%%% Create shielded xsec %%%%%%%%%%%%%%%%%%%%%%%%%\n").map Piece.chr ++ ([Piece.fld c!"nendf"] ++ ((c!" ").map Piece.chr ++ ([Piece.fld c!"ngroupr_in"] ++ ((c!" 0 ").map Piece.chr ++ ([Piece.fld c!"ngroupr_out"] ++ ((c!"/\n").map Piece.chr ++ ([Piece.fld c!"mat"] ++ ((c!" 1 0 ").map Piece.chr ++ ([Piece.fld c!"iwt_fluxweight"] ++ ((c!" 1 ").map Piece.chr ++ ([Piece.fld c!"num_temp"] ++ ((c!"/ user groups, weight flux\nxsec / \n").map Piece.chr ++ ([Piece.fld c!"temps"] ++ ((c!"/\n1e10/ background sigma (need to include \"inf\")/\n").map Piece.chr ++ ([Piece.fld c!"cov_ngroups"] ++ ((c!"/\n").map Piece.chr ++ ([Piece.fld c!"cov_group_bounds"] ++ ((c!"/\n").map Piece.chr))))))))))))))))))) := by rfl
  simp only [format, hp, render_chrs, render_chr, render_fld h_nendf, render_fld h_ngroupr_in, render_fld h_ngroupr_out, render_fld h_mat, render_fld h_iwt_fluxweight, render_fld h_num_temp, render_fld h_temps, render_fld h_cov_ngroups, render_fld h_cov_group_bounds]
  rfl

/-- `tGrouprFluxHead` with the values put in. -/
def xGrouprFlux (nendf ngroupr_in ngroupr_out mat num_temp temps cov_ngroups cov_group_bounds user_flux_weight : W) : W :=
  c!"\ngroupr / %%%%%%%%%%%%%%%%%%%%%%%% Create shielded xsec %%%%%%%%%%%%%%%%%%%%%%%%%\n" ++ (nendf ++ (c!" " ++ (ngroupr_in ++ (c!" 0 " ++ (ngroupr_out ++ (c!"/\n" ++ (mat ++ (c!" 1 0 1 1 " ++ (num_temp ++ (c!"/ user groups, user weight flux\nxsec / \n" ++ (temps ++ (c!"/\n1e10/ background sigma (need to include \"inf\")/\n" ++ (cov_ngroups ++ (c!"/\n" ++ (cov_group_bounds ++ (c!"/\n" ++ (user_flux_weight ++ (c!"/\n"))))))))))))))))))

theorem noBrace_xGrouprFlux {nendf ngroupr_in ngroupr_out mat num_temp temps cov_ngroups cov_group_bounds user_flux_weight : W} (h_nendf : NoBrace nendf) (h_ngroupr_in : NoBrace ngroupr_in) (h_ngroupr_out : NoBrace ngroupr_out) (h_mat : NoBrace mat) (h_num_temp : NoBrace num_temp) (h_temps : NoBrace temps) (h_cov_ngroups : NoBrace cov_ngroups) (h_cov_group_bounds : NoBrace cov_group_bounds) (h_user_flux_weight : NoBrace user_flux_weight) : NoBrace (xGrouprFlux nendf ngroupr_in ngroupr_out mat num_temp temps cov_ngroups cov_group_bounds user_flux_weight) :=
  noBrace_append (by decide +kernel) (noBrace_append h_nendf (noBrace_append (by decide +kernel) (noBrace_append h_ngroupr_in (noBrace_append (by decide +kernel) (noBrace_append h_ngroupr_out (noBrace_append (by decide +kernel) (noBrace_append h_mat (noBrace_append (by decide +kernel) (noBrace_append h_num_temp (noBrace_append (by decide +kernel) (noBrace_append h_temps (noBrace_append (by decide +kernel) (noBrace_append h_cov_ngroups (noBrace_append (by decide +kernel) (noBrace_append h_cov_group_bounds (noBrace_append (by decide +kernel) (noBrace_append h_user_flux_weight ((by decide +kernel)))))))))))))))))))

theorem format_xGrouprFlux {env : List (W × W)} {nendf ngroupr_in ngroupr_out mat num_temp temps cov_ngroups cov_group_bounds user_flux_weight : W} (h_nendf : Dict.get? env c!"nendf" = some nendf) (h_ngroupr_in : Dict.get? env c!"ngroupr_in" = some ngroupr_in) (h_ngroupr_out : Dict.get? env c!"ngroupr_out" = some ngroupr_out) (h_mat : Dict.get? env c!"mat" = some mat) (h_num_temp : Dict.get? env c!"num_temp" = some num_temp) (h_temps : Dict.get? env c!"temps" = some temps) (h_cov_ngroups : Dict.get? env c!"cov_ngroups" = some cov_ngroups) (h_cov_group_bounds : Dict.get? env c!"cov_group_bounds" = some cov_group_bounds) (h_user_flux_weight : Dict.get? env c!"user_flux_weight" = some user_flux_weight) : format env tGrouprFluxHead = .ok (xGrouprFlux nendf ngroupr_in ngroupr_out mat num_temp temps cov_ngroups cov_group_bounds user_flux_weight) := by
  have hp : parse tGrouprFluxHead = some ((c!"\ngroupr / %%%%%%%%%%%%%%%%%%%%%%%% Create shielded xsec %%%%%%%%%%%%%%%%%%%%%%%%%\n").map Piece.chr ++ ([Piece.fld c!"nendf"] ++ ((c!" ").map Piece.chr ++ ([Piece.fld c!"ngroupr_in"] ++ ((c!" 0 ").map Piece.chr ++ ([Piece.fld c!"ngroupr_out"] ++ ((c!"/\n").map Piece.chr ++ ([Piece.fld c!"mat"] ++ ((c!" 1 0 1 1 ").map Piece.chr ++ ([Piece.fld c!"num_temp"] ++ ((c!"/ user groups, user weight flux\nxsec / \n").map Piece.chr ++ ([Piece.fld c!"temps"] ++ ((c!"/\n1e10/ background sigma (need to include \"inf\")/\n").map Piece.chr ++ ([Piece.fld c!"cov_ngroups"] ++ ((c!"/\n").map Piece.chr ++ ([Piece.fld c!"cov_group_bounds"] ++ ((c!"/\n").map Piece.chr ++ ([Piece.fld c!"user_flux_weight"] ++ ((c!"/\n").map Piece.chr))))))))))))))))))) := by rfl
  simp only [format, hp, render_chrs, render_chr, render_fld h_nendf, render_fld h_ngroupr_in, render_fld h_ngroupr_out, render_fld h_mat, render_fld h_num_temp, render_fld h_temps, render_fld h_cov_ngroups, render_fld h_cov_group_bounds, render_fld h_user_flux_weight]
  rfl

end ASAPy.Deck
