import Verif.Dists.LawProps

/-! # C110: spectra by incident energy -/

set_option linter.unusedSimpArgs false
set_option linter.unusedSectionVars false

namespace ASAPy.Dists
open ASAPy.FromAce

section
variable {K : Type} [Field K] [LinearOrder K] [FloorRing K] [IsStrictOrderedRing K]

theorem head_at {a : Arrays K} {p : Nat} {n : Tab K} (h : AtL a.xss p n.numbers) (hf : Fits n) {locs : List Nat} (hl : n.values = locs.map fun v : Nat => (v : K)) (q : Int) (hq : q = p) :
    head a q = .ok (headEv n, locs.map fun v : Nat => (v : Int)) := by
  subst hq
  obtain ⟨h0, h1, hB, hI, hE, hV⟩ := tab_parts h hf
  obtain ⟨f1, f2⟩ := hf
  have rE : slice a.xss ((p : Int) + 1 + (2 * (n.breakpoints.length : Int) + 1)) ((p : Int) + 1 + (2 * (n.breakpoints.length : Int) + 1) + n.energies.length) = n.energies :=
    slice_at hE _ _ (by push_cast; ring) rfl
  have rV : slice a.xss ((p : Int) + 1 + (2 * (n.breakpoints.length : Int) + 1) + n.energies.length) ((p : Int) + 1 + (2 * (n.breakpoints.length : Int) + 1) + n.energies.length + n.energies.length) = n.values :=
    slice_at hV _ _ (by push_cast; ring) (by rw [f2])
  unfold head
  simp only [bind, Except.bind, h0, h1, rE, rV, hl, map_trunc]
  have hlen : locs.length = n.energies.length := by rw [← f2, hl, List.length_map]
  rw [if_neg (by rw [List.length_map, hlen]; omega)]
  simp only [pure, Except.pure, Except.ok.injEq, Prod.mk.injEq, and_true, headEv, tabEv, Head.mk.injEq]
  refine ⟨?_, ?_, List.map_congr_left fun v _ => mul_comm _ _⟩
  · by_cases hb : n.breakpoints = []
    · rw [if_pos hb, hb]; simp
    · have : 0 < n.breakpoints.length := List.length_pos_iff.mpr hb
      rw [if_neg hb, if_pos (by omega), slice_at hB _ _ (by push_cast; ring) (by rw [List.length_map]), map_trunc]
  · by_cases hb : n.breakpoints = []
    · rw [if_pos hb, hb]; simp
    · have : 0 < n.breakpoints.length := List.length_pos_iff.mpr hb
      rw [if_neg hb, if_pos (by omega), slice_at hI _ _ (by push_cast; ring) (by rw [List.length_map, f1]; ring), map_trunc]

theorem family_head {a : Arrays K} {p : Nat} {bps laws : List Nat} {incident : List K} {spectra : List (Lined K)} (h : FamilyAt a.xss p bps laws incident spectra) :
    head a p = .ok (headEv ⟨bps, laws, incident, []⟩, spectra.map fun s => (s.loc : Int)) := by
  obtain ⟨h1, h2, h3⟩ := h
  rw [head_at h3 ⟨h1, by simpa using h2⟩ (locs := spectra.map (·.loc)) (by simp) _ rfl]
  simp [headEv, tabEv]

theorem mapM_map {α β γ : Type} (f : β → Except PyErr γ) (g : α → β) : ∀ l : List α, (l.map g).mapM f = l.mapM fun x => f (g x)
  | [] => rfl
  | x :: l => by simp only [List.map_cons, List.mapM_cons, mapM_map f g l]

theorem forall₂_fst {α β γ : Type} {R : α → β × γ → Prop} {f : α → β} (h : ∀ a o, R a o → o.1 = f a) : ∀ {l : List α} {out : List (β × γ)}, List.Forall₂ R l out → out.map (·.1) = l.map f
  | _, _, .nil => rfl
  | _, _, .cons hr ht => by simp [h _ _ hr, forall₂_fst h ht]

theorem forall₂_map {α β γ : Type} {R : α → β → Prop} {f : α → γ} {g : β → γ} (h : ∀ a o, R a o → g o = f a) : ∀ {l : List α} {out : List β}, List.Forall₂ R l out → out.map g = l.map f
  | _, _, .nil => rfl
  | _, _, .cons hr ht => by simp [h _ _ hr, forall₂_map h ht]

theorem spectra_at {a : Arrays K} {block extra : Nat} {strict : Bool} {spectra : List (Lined K)} (hin : ∀ s ∈ spectra, s.In a.xss block extra strict) :
    ∃ out, (spectra.map fun s => (s.loc : Int)).mapM (fun l => spectrum (3 + extra) (!strict) a (block + l - 1)) = .ok out ∧
      List.Forall₂ (fun s o => o.1 = s.inEv ∧ o.2.getD 0 [] = s.energies ∧ ∀ i, i < s.more.length → o.2.getD (3 + i) [] = s.more.getD i []) spectra out := by
  rw [mapM_map]
  apply mapM_means
  intro s hs
  obtain ⟨rows, h1, h2, h3⟩ := spectrum_at (hin s hs) _ rfl
  refine ⟨_, h1, rfl, h2, ?_⟩
  intro i hi
  rw [h3 i _ (List.getElem?_eq_getElem hi), List.getD_eq_getElem?_getD, List.getElem?_eq_getElem hi]
  rfl

/-- **C110.** Law 4: for every incident energy the spectrum of the file, the energies in eV and the densities in 1/eV; discrete lines keep their probabilities. -/
theorem C110_continuous {a : Arrays K} {awr : K} {q : Option K} {block start p : Nat} (hl : LawIn a block start 4 p) {bps laws : List Nat} {incident : List K} {spectra : List (Lined K)}
    (h : FamilyAt a.xss p bps laws incident spectra) (hin : ∀ s ∈ spectra, s.In a.xss block 0 true) :
    lawAt a awr q block start = .ok (.continuous (headEv ⟨bps, laws, incident, []⟩) (spectra.map Lined.inEv)) := by
  obtain ⟨loc, -, hp, h1, h2⟩ := law_start hl
  obtain ⟨out, ho, hF⟩ := spectra_at hin
  unfold lawAt
  simp only [bind, Except.bind, h1, h2, ← hp]
  rw [if_neg (by decide), if_neg (by decide), if_pos (by decide)]
  unfold continuous
  simp only [bind, Except.bind, family_head h]
  have ho' : (spectra.map fun s => (s.loc : Int)).mapM (fun l => spectrum 3 false a (block + l - 1)) = .ok out := ho
  rw [ho']
  simp only [pure, Except.pure]
  rw [forall₂_map (f := Lined.inEv) (fun _ _ h => h.1) hF]

/-- **C110.** Law 44 (Kalbach-Mann): moreover the precompound fraction and the slope at every outgoing energy. -/
theorem C110_kalbach {a : Arrays K} {awr : K} {q : Option K} {block start p : Nat} (hl : LawIn a block start 44 p) {bps laws : List Nat} {incident : List K} {spectra : List (Lined K)}
    (h : FamilyAt a.xss p bps laws incident spectra) (hin : ∀ s ∈ spectra, s.In a.xss block 2 false) :
    lawAt a awr q block start = .ok (.kalbach (headEv ⟨bps, laws, incident, []⟩) (spectra.map Lined.inEv) (spectra.map fun s => .linlin s.energies (s.more.getD 0 []))
      (spectra.map fun s => .linlin s.energies (s.more.getD 1 []))) := by
  obtain ⟨loc, -, hp, h1, h2⟩ := law_start hl
  obtain ⟨out, ho, hF⟩ := spectra_at hin
  have hmore : ∀ s ∈ spectra, s.more.length = 2 := fun s hs => (hin s hs).2.2.1
  unfold lawAt
  simp only [bind, Except.bind, h1, h2, ← hp]
  rw [if_neg (by decide), if_neg (by decide), if_neg (by decide), if_neg (by decide), if_neg (by decide), if_neg (by decide), if_neg (by decide), if_pos (by decide)]
  unfold kalbach
  simp only [bind, Except.bind, family_head h]
  have ho' : (spectra.map fun s => (s.loc : Int)).mapM (fun l => spectrum 5 true a (block + l - 1)) = .ok out := ho
  rw [ho']
  simp only [pure, Except.pure]
  have hF' : List.Forall₂ (fun (s : Lined K) (o : EOut K × List (List K)) => o.2.getD 0 [] = s.energies ∧ o.2.getD 3 [] = s.more.getD 0 [] ∧ o.2.getD 4 [] = s.more.getD 1 []) spectra out := by
    clear ho' ho h
    induction hF with
    | nil => exact .nil
    | cons hr _ ih =>
      have hm := hmore _ (List.mem_cons_self ..)
      exact .cons ⟨hr.2.1, hr.2.2 0 (by omega), hr.2.2 1 (by omega)⟩ (ih (fun s hs => hin s (by simp [hs])) fun s hs => hmore s (by simp [hs]))
  rw [forall₂_map (f := Lined.inEv) (fun _ _ h => h.1) hF, forall₂_map (f := fun s : Lined K => Tab1D.linlin s.energies (s.more.getD 0 [])) (fun _ _ h => by rw [h.1, h.2.1]) hF',
    forall₂_map (f := fun s : Lined K => Tab1D.linlin s.energies (s.more.getD 1 [])) (fun _ _ h => by rw [h.1, h.2.2]) hF']

theorem cosines_at {a : Arrays K} {block : Nat} {t : Option (CosTable K)} (h : CosIn a.xss block t) : cosines a block (cosLocator t) = .ok (cosMu t) := by
  cases t with
  | none => simp [cosines, cosLocator, cosMu, pyTrunc]
  | some t =>
    obtain ⟨h0, hat⟩ := h
    unfold cosines
    simp only [cosLocator, pyTrunc_nat, cosMu]
    rw [if_pos (by omega), Nat.abs_cast]
    exact muTable_at hat _ (by omega)

/-- **C110.** Law 61: moreover the cosines at every outgoing energy, isotropic where there is no table. -/
theorem C110_correlated {a : Arrays K} {awr : K} {q : Option K} {block start p : Nat} (hl : LawIn a block start 61 p) {bps laws : List Nat} {incident : List K}
    {spectra : List (Lined K × List (Option (CosTable K)))} (h : FamilyAt a.xss p bps laws incident (spectra.map (·.1))) (hin : ∀ s ∈ spectra, s.1.In a.xss block 1 false)
    (hcos : ∀ s ∈ spectra, s.1.more = [s.2.map cosLocator] ∧ ∀ t ∈ s.2, CosIn a.xss block t) :
    lawAt a awr q block start = .ok (.correlated (headEv ⟨bps, laws, incident, []⟩) (spectra.map (·.1.inEv)) (spectra.map (·.2.map cosMu))) := by
  obtain ⟨loc, -, hp, h1, h2⟩ := law_start hl
  have hone : ∀ s ∈ spectra, ∃ o, (spectrum 4 true a (block + (s.1.loc : Int) - 1) >>= fun x => match x with
      | (o, rows) => (rows.getD 3 []).mapM (cosines a block) >>= fun mu => pure (o, mu)) = Except.ok o ∧ o.1 = s.1.inEv ∧ o.2 = s.2.map cosMu := by
    intro s hs
    obtain ⟨rows, g1, g2, g3⟩ := spectrum_at (hin s hs) _ rfl
    obtain ⟨c1, c2⟩ := hcos s hs
    have hr : rows.getD 3 [] = s.2.map cosLocator := g3 0 _ (by rw [c1]; rfl)
    have hm : (s.2.map cosLocator).mapM (cosines a block) = .ok (s.2.map cosMu) := by
      rw [mapM_map]
      clear hr g1 g2 g3 c1
      revert c2
      generalize s.2 = l
      intro c2
      induction l with
      | nil => rfl
      | cons t l ih =>
        simp only [List.mapM_cons, cosines_at (c2 t (by simp)), ih fun t ht => c2 t (by simp [ht]), bind, Except.bind, pure, Except.pure, List.map_cons]
    have g1' : spectrum 4 true a (block + (s.1.loc : Int) - 1) = .ok (s.1.inEv, rows) := g1
    exact ⟨(s.1.inEv, s.2.map cosMu), by simp only [g1', hr, hm, bind, Except.bind, pure, Except.pure], rfl, rfl⟩
  obtain ⟨out, ho, hF⟩ := mapM_means spectra hone
  unfold lawAt
  simp only [bind, Except.bind, h1, h2, ← hp]
  rw [if_neg (by decide), if_neg (by decide), if_neg (by decide), if_neg (by decide), if_neg (by decide), if_neg (by decide), if_neg (by decide), if_neg (by decide), if_pos (by decide)]
  unfold correlated
  rw [family_head h, List.map_map]
  have ho' : (spectra.map ((fun s => (s.loc : Int)) ∘ fun x => x.1)).mapM (fun l => (spectrum 4 true a (block + l - 1) >>= fun x => match x with
      | (o, rows) => (rows.getD 3 []).mapM (cosines a block) >>= fun mu => pure (o, mu) : Except PyErr _)) = .ok out := by
    rw [mapM_map]
    exact ho
  simp only [bind, Except.bind] at ho' ⊢
  rw [ho']
  simp only [pure, Except.pure]
  rw [forall₂_map (f := fun s : Lined K × List (Option (CosTable K)) => s.1.inEv) (fun _ _ h => h.1) hF,
    forall₂_map (f := fun s : Lined K × List (Option (CosTable K)) => s.2.map cosMu) (fun _ _ h => h.2) hF]

end
end ASAPy.Dists
