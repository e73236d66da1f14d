import Verif.Deck.Parts

/-!
# The template of COVR with plots, which is itself made from templates
-/

namespace ASAPy.Deck

set_option maxRecDepth 100000
set_option linter.unusedSimpArgs false

/-- The template with the number of cases filled in. -/
def covrHead1 : W := c!"\ncovr / %%%%%%%%%%%%%%%%%%%%%%%%% Create Cov Info (PLOT) %%%%%%%%%%%%%%%%%%%%%%%%%%%%\n{nerr} 0 {covr_plot_out}/\n1/\n/\n1 "

theorem format_covrHead {env : List (W × W)} {n : W} (h : Dict.get? env c!"n_mats" = some n) : format env tCovrPlotHead = .ok (covrHead1 ++ (n ++ c!"/\n")) := by
  have hp : parse tCovrPlotHead = some (covrHead1.map Piece.chr ++ ([Piece.fld c!"n_mats"] ++ (c!"/\n").map Piece.chr)) := by rfl
  simp only [format, hp, render_chrs, render_chr, render_fld h]
  rfl

theorem format_covrLine {env : List (W × W)} {mt : W} (h : Dict.get? env c!"mt" = some mt) :
    format env c!"{{mat}} {mt} {{mat}} {mt}/\n" = .ok (c!"{mat} " ++ (mt ++ (c!" {mat} " ++ (mt ++ c!"/\n")))) := by
  have hp : parse c!"{{mat}} {mt} {{mat}} {mt}/\n" = some ((c!"{mat} ").map Piece.chr ++ ([Piece.fld c!"mt"] ++ ((c!" {mat} ").map Piece.chr ++ ([Piece.fld c!"mt"] ++ (c!"/\n").map Piece.chr)))) := by rfl
  simp only [format, hp, render_chrs, render_chr, render_fld h]
  rfl

theorem foldlM_append {α ε : Type} (f : α → Except ε W) (g : α → W) (h : ∀ a, f a = .ok (g a)) (l : List α) :
    ∀ s : W, l.foldlM (fun s a => do let x ← f a; pure (s ++ x)) s = .ok (s ++ (l.map g).flatten) := by
  induction l with
  | nil => intro s; simp; rfl
  | cons a l ih =>
    intro s
    rw [List.foldlM_cons]
    simp only [h a]
    change (l.foldlM (fun s a => do let x ← f a; pure (s ++ x)) (s ++ g a)) = _
    rw [ih]; simp

theorem tCovrPlot_eq (mts : List Nat) : tCovrPlot mts = .ok (covrHead1 ++ (Dec.natStr (if 1 ≤ mts.length then mts.length else 1) ++ c!"/\n") ++ (if mts = [] then c!"{mat}/\n" else []) ++
    (mts.map fun mt => c!"{mat} " ++ (Dec.natStr mt ++ (c!" {mat} " ++ (Dec.natStr mt ++ c!"/\n")))).flatten) := by
  unfold tCovrPlot
  rw [format_covrHead (n := Dec.natStr (if 1 ≤ mts.length then mts.length else 1)) (by simp [Dict.get?])]
  change (mts.foldlM (fun s mt => do let x ← format [(c!"mt", Dec.natStr mt)] c!"{{mat}} {mt} {{mat}} {mt}/\n"; pure (s ++ x)) (if mts = [] then _ else _)) = _
  rw [foldlM_append _ (fun mt => c!"{mat} " ++ (Dec.natStr mt ++ (c!" {mat} " ++ (Dec.natStr mt ++ c!"/\n")))) (fun mt => format_covrLine (by simp [Dict.get?]))]
  split <;> simp

/-- COVR with plots, filled in. -/
def xCovrPlot (nerr out mat : W) (mts : List Nat) : W :=
  c!"\ncovr / %%%%%%%%%%%%%%%%%%%%%%%%% Create Cov Info (PLOT) %%%%%%%%%%%%%%%%%%%%%%%%%%%%\n" ++ (nerr ++ (c!" 0 " ++ (out ++ (c!"/\n1/\n/\n1 " ++
    (Dec.natStr (if 1 ≤ mts.length then mts.length else 1) ++ (c!"/\n" ++ ((if mts = [] then mat ++ c!"/\n" else []) ++
      (mts.map fun mt => mat ++ (c!" " ++ (Dec.natStr mt ++ (c!" " ++ (mat ++ (c!" " ++ (Dec.natStr mt ++ c!"/\n"))))))).flatten)))))))

theorem format_xCovrHead1 {env : List (W × W)} {nerr out : W} (h1 : Dict.get? env c!"nerr" = some nerr) (h2 : Dict.get? env c!"covr_plot_out" = some out) :
    format env covrHead1 = .ok (c!"\ncovr / %%%%%%%%%%%%%%%%%%%%%%%%% Create Cov Info (PLOT) %%%%%%%%%%%%%%%%%%%%%%%%%%%%\n" ++ (nerr ++ (c!" 0 " ++ (out ++ c!"/\n1/\n/\n1 ")))) := by
  have hp : parse covrHead1 = some ((c!"\ncovr / %%%%%%%%%%%%%%%%%%%%%%%%% Create Cov Info (PLOT) %%%%%%%%%%%%%%%%%%%%%%%%%%%%\n").map Piece.chr ++ ([Piece.fld c!"nerr"] ++
    ((c!" 0 ").map Piece.chr ++ ([Piece.fld c!"covr_plot_out"] ++ (c!"/\n1/\n/\n1 ").map Piece.chr)))) := by rfl
  simp only [format, hp, render_chrs, render_chr, render_fld h1, render_fld h2]
  rfl

theorem format_mat {env : List (W × W)} {mat : W} (h : Dict.get? env c!"mat" = some mat) : format env c!"{mat} " = .ok (mat ++ c!" ") := by
  have hp : parse c!"{mat} " = some ([Piece.fld c!"mat"] ++ (c!" ").map Piece.chr) := by rfl
  simp only [format, hp, render_chrs, render_chr, render_fld h]
  rfl

theorem format_mat' {env : List (W × W)} {mat : W} (h : Dict.get? env c!"mat" = some mat) : format env c!" {mat} " = .ok (c!" " ++ (mat ++ c!" ")) := by
  have hp : parse c!" {mat} " = some ((c!" ").map Piece.chr ++ ([Piece.fld c!"mat"] ++ (c!" ").map Piece.chr)) := by rfl
  simp only [format, hp, render_chrs, render_chr, render_fld h]
  rfl

theorem format_mat_end {env : List (W × W)} {mat : W} (h : Dict.get? env c!"mat" = some mat) : format env c!"{mat}/\n" = .ok (mat ++ c!"/\n") := by
  have hp : parse c!"{mat}/\n" = some ([Piece.fld c!"mat"] ++ (c!"/\n").map Piece.chr) := by rfl
  simp only [format, hp, render_chrs, render_chr, render_fld h]
  rfl

theorem noBrace_natStr (n : Nat) : NoBrace (Dec.natStr n) := (plain_natStr n).noBrace

theorem format_ok_append {env : List (W × W)} {a b x y : W} (ha : format env a = .ok x) (hb : format env b = .ok y) : format env (a ++ b) = .ok (x ++ y) := by
  rw [format_append ha, hb]; rfl

theorem format_flatten {α : Type} {env : List (W × W)} (f g : α → W) (h : ∀ a, format env (f a) = .ok (g a)) (l : List α) :
    format env (l.map f).flatten = .ok (l.map g).flatten := by
  induction l with
  | nil => rfl
  | cons a l ih => simpa using format_ok_append (h a) ih

theorem format_xCovrPlot {env : List (W × W)} {nerr out mat : W} (h1 : Dict.get? env c!"nerr" = some nerr) (h2 : Dict.get? env c!"covr_plot_out" = some out)
    (h3 : Dict.get? env c!"mat" = some mat) (mts : List Nat) : (do let d ← tCovrPlot mts; format env d) = .ok (xCovrPlot nerr out mat mts) := by
  rw [tCovrPlot_eq]
  change format env _ = _
  have hl : ∀ mt : Nat, format env (c!"{mat} " ++ (Dec.natStr mt ++ (c!" {mat} " ++ (Dec.natStr mt ++ c!"/\n")))) =
      .ok (mat ++ (c!" " ++ (Dec.natStr mt ++ (c!" " ++ (mat ++ (c!" " ++ (Dec.natStr mt ++ c!"/\n"))))))) := by
    intro mt
    have := format_ok_append (format_mat h3) (format_ok_append (format_noBrace (noBrace_natStr mt) env) (format_ok_append (format_mat' h3)
      (format_ok_append (format_noBrace (noBrace_natStr mt) env) (format_noBrace (s := c!"/\n") (by decide +kernel) env))))
    simpa using this
  have ho : format env (if mts = [] then c!"{mat}/\n" else []) = .ok (if mts = [] then mat ++ c!"/\n" else []) := by
    split
    · exact format_mat_end h3
    · rfl
  have := format_ok_append (format_ok_append (format_ok_append (format_xCovrHead1 h1 h2) (format_ok_append (format_noBrace (noBrace_natStr (if 1 ≤ mts.length then mts.length else 1)) env)
    (format_noBrace (s := c!"/\n") (by decide +kernel) env))) ho) (format_flatten _ _ hl mts)
  rw [this]
  simp [xCovrPlot]

theorem noBrace_xCovrPlot {nerr out mat : W} (h1 : NoBrace nerr) (h2 : NoBrace out) (h3 : NoBrace mat) (mts : List Nat) : NoBrace (xCovrPlot nerr out mat mts) := by
  have hf : NoBrace (mts.map fun mt => mat ++ (c!" " ++ (Dec.natStr mt ++ (c!" " ++ (mat ++ (c!" " ++ (Dec.natStr mt ++ c!"/\n"))))))).flatten := by
    induction mts with
    | nil => intro c hc; simp at hc
    | cons m l ih =>
      rw [List.map_cons, List.flatten_cons]
      exact noBrace_append (noBrace_append h3 (noBrace_append (by decide +kernel) (noBrace_append (noBrace_natStr m) (noBrace_append (by decide +kernel) (noBrace_append h3
        (noBrace_append (by decide +kernel) (noBrace_append (noBrace_natStr m) (by decide +kernel)))))))) ih
  refine noBrace_append (by decide +kernel) (noBrace_append h1 (noBrace_append (by decide +kernel) (noBrace_append h2 (noBrace_append (by decide +kernel)
    (noBrace_append (noBrace_natStr _) (noBrace_append (by decide +kernel) (noBrace_append ?_ hf)))))))
  split
  · exact noBrace_append h3 (by decide +kernel)
  · intro c hc; simp at hc

theorem cards_lines {mat : W} (hm : Plain mat) (mts : List Nat) (s : W) :
    cards 4 mts.length ((mts.map fun mt => mat ++ (c!" " ++ (Dec.natStr mt ++ (c!" " ++ (mat ++ (c!" " ++ (Dec.natStr mt ++ c!"/\n"))))))).flatten ++ s) =
      (mts.map fun mt => [mat, Dec.natStr mt, mat, Dec.natStr mt], s) := by
  induction mts with
  | nil => rfl
  | cons m l ih =>
    have e : ∀ r, card 4 (mat ++ (c!" " ++ (Dec.natStr m ++ (c!" " ++ (mat ++ (c!" " ++ (Dec.natStr m ++ (c!"/\n" ++ r)))))))) = ([mat, Dec.natStr m, mat, Dec.natStr m], r) := by
      intro r
      simp [card_word, card_blank, card_done, card_zero, card_lit, word_cons, word_end, word_plain, endLine_end, endLine_other, plain_natStr, Str.isSpace, hm]
    simp only [List.map_cons, List.flatten_cons, List.append_assoc, List.length_cons, cards, e, ih]

/-- The cases COVR plots: the reactions given, or all of the material. -/
def plotCases (mat : W) (mts : List Nat) : List (List W) := if mts = [] then [[mat]] else mts.map fun mt => [mat, Dec.natStr mt, mat, Dec.natStr mt]

theorem part_covrPlot {a b mat : W} (ha : Plain a) (hb : Plain b) (hm : Plain mat) (mts : List Nat) :
    Part (xCovrPlot a b mat mts) [.covrPlot [a, c!"0", b] (plotCases mat mts)] := by
  refine Part.one (name := c!"covr") (fun s => rfl) ?_
  intro s
  show readCovr _ = _
  cases mts with
  | nil =>
    simp [readCovr, plotCases, card_word, card_blank, card_done, card_zero, card_lit, word_cons, word_end, word_plain, endLine_end, endLine_other, plain_natStr, Str.isSpace, at_, ha, hb, hm, cards, Dec.natVal_natStr]
  | cons m l =>
    have e := cards_lines hm (m :: l) s
    have h1 : 1 ≤ (m :: l).length := by simp
    simp only [h1, if_true, reduceCtorEq, if_false, plotCases]
    generalize (m :: l) = mts at *
    simp [readCovr, card_word, card_blank, card_done, card_zero, card_lit, word_cons, word_end, word_plain, endLine_end, endLine_other, plain_natStr, Str.isSpace, at_, ha, hb, hm, Dec.natVal_natStr, -List.cons_append]
    simp only [List.singleton_append, List.cons_append, List.nil_append] at e
    rw [e]
    exact ⟨rfl, rfl⟩

end ASAPy.Deck
