import Verif.Hdf5.Pack

/-!
# Groups and distributions are read back
-/

namespace ASAPy.Hdf5

variable {K : Type}

theorem get?_app {α : Type} (l m : List (Text × α)) (k : Text) : Dict.get? (l ++ m) k = (Dict.get? l k).or (Dict.get? m k) := by
  induction l with
  | nil => simp [Dict.get?]
  | cons e l ih =>
    obtain ⟨k', a⟩ := e
    simp only [List.cons_append, Dict.get?]
    split <;> simp [*]

theorem add_ok {g : Grp K} {k : Text} {n : Node K} (h : Dict.get? g.items k = none) : g.add k n = .ok ⟨g.attrs, g.items ++ [(k, n)]⟩ := by
  simp [Grp.add, h]

theorem getAttr_set (a : Attrs K) (k : Text) (v : Val K) : getAttr (Dict.set a k v) k = .ok v := by
  simp [getAttr, Dict.get?_set_same]

theorem getAttr_set_ne (a : Attrs K) {k k' : Text} (v : Val K) (h : k' ≠ k) : getAttr (Dict.set a k v) k' = getAttr a k' := by
  simp [getAttr, Dict.get?_set_ne _ _ h]

/-- The names distributions use. -/
def names : List Text := [c!"angle", c!"energy", c!"mu", c!"distribution", c!"energy_out", c!"theta", c!"a", c!"b", c!"xy"]

/-- None of these names is used yet. -/
def Grp.Free (g : Grp K) : Prop := ∀ k ∈ names, Dict.get? g.items k = none

theorem Grp.empty_free : (Grp.empty : Grp K).Free := fun _ _ => rfl

/-! ### Tables -/

theorem tabTo_ok {t : Tab1D K} (h : Tab1D.Stored t) : tabTo t =
    .ok (.data (.rows [t.x, t.y]) [(c!"type", .str c!"Tabulated1D"), (c!"breakpoints", .ints t.breakpoints), (c!"interpolation", .ints (t.interpolation.map Int.ofNat))]) := by
  unfold Tab1D.Stored at h
  simp [tabTo, vstack, h]

theorem map_toNat_ofNat (l : List Nat) : (l.map Int.ofNat).map Int.toNat = l := by
  induction l with
  | nil => rfl
  | cons a l ih => simpa using ih

theorem tabFrom_ok (t : Tab1D K) : tabFrom ((.rows [t.x, t.y] : Val K), [(c!"type", .str c!"Tabulated1D"), (c!"breakpoints", .ints t.breakpoints),
    (c!"interpolation", .ints (t.interpolation.map Int.ofNat))]) = .ok t := by
  simp [tabFrom, getAttr, Dict.get?, Val.toStr, Val.toRows, Val.toInts, row]
  rw [← List.map_map, map_toNat_ofNat]

variable [Field K] [LinearOrder K]

theorem dset_of {g : Grp K} {k : Text} {v : Val K} {a : Attrs K} (h : Dict.get? g.items k = some (.data v a)) : g.dset k = .ok (v, a) := by
  simp [Grp.dset, h]

theorem group_of {g : Grp K} {k : Text} {a : Attrs K} {i} (h : Dict.get? g.items k = some (.group a i)) : g.group k = .ok ⟨a, i⟩ := by
  simp [Grp.group, h]

/-! ### Incoming energies -/

/-- The dataset for the incoming energies. -/
def headNode (h : Head K) : Node K := .data (.vec h.energy) [(c!"interpolation", .table [h.breakpoints, h.interpolation])]

theorem headTo_ok {g : Grp K} {h : Head K} (hb : h.breakpoints.length = h.interpolation.length) (hg : Dict.get? g.items c!"energy" = none) :
    headTo g h = .ok ⟨g.attrs, g.items ++ [(c!"energy", headNode h)]⟩ := by
  simp [headTo, vstack, hb, add_ok hg, headNode]

theorem headFrom_ok {g : Grp K} {h : Head K} (hg : Dict.get? g.items c!"energy" = some (headNode h)) : headFrom g = .ok h := by
  unfold headNode at hg
  simp [headFrom, dset_of hg, getAttr, Dict.get?, Val.toTable, row, Val.toVec]

theorem indexFrom_ok (ix : Index) : indexFrom (ix.attrs : Attrs K) = .ok ix := by
  simp [indexFrom, Index.attrs, getAttr, Dict.get?, Val.toInts]

theorem even_all {b : Bool} {out : List (Uni K)} (h : ∀ d ∈ out, d.Out b) : ∀ d ∈ out, d.Even := fun d hd => (h d hd).even

/-! ### Continuous tabular -/

theorem continuous_round {g : Grp K} (hg : g.Free) {h : Head K} {out : List (Uni K)} (hh : h.Stored out.length) (ho : ∀ d ∈ out, d.Out false) :
    ∃ g', continuousTo g h out = .ok g' ∧ g'.attrs = Dict.set g.attrs c!"type" (.str c!"continuous") ∧ continuousFrom g' = .ok (.continuous h out) := by
  obtain ⟨hb, he⟩ := hh
  unfold continuousTo
  rw [headTo_ok hb (by simpa [Grp.attr] using hg _ (by simp [names]))]
  simp only [ok_bind, putAll_fresh out (even_all ho)]
  rw [add_ok (by rw [get?_app]; simp [Grp.attr, hg _ (show c!"distribution" ∈ names by simp [names]), Dict.get?])]
  refine ⟨_, rfl, rfl, ?_⟩
  unfold continuousFrom
  rw [headFrom_ok (h := h) (by simp [Grp.attr, get?_app, hg _ (show c!"energy" ∈ names by simp [names]), Dict.get?])]
  simp only [ok_bind]
  rw [dset_of (v := .rows [out.flatMap Uni.points, out.flatMap Uni.ps, out.flatMap Uni.cs]) (a := (indexOf out 0).attrs)
    (by simp [Grp.attr, get?_app, hg _ (show c!"distribution" ∈ names by simp [names]), Dict.get?])]
  simp only [ok_bind, indexFrom_ok, Val.toRows, row]
  simp only [List.getElem?_cons_zero, List.getElem?_cons_succ, ok_bind, he, takeAll_all out ho]

/-! ### Energy distributions -/

theorem energy_round {e : Energy K} (he : e.Stored) : ∃ g', energyTo Grp.empty e = .ok g' ∧ energyFrom g' = .ok e := by
  cases e with
  | maxwell t u =>
    refine ⟨_, by simp only [energyTo, tabTo_ok he, ok_bind]; rw [add_ok rfl], ?_⟩
    simp [energyFrom, getAttr, Dict.get?, Val.toStr, Grp.attr, Grp.empty, Grp.dset, Dict.set, tabFrom_ok, Val.toNum]
  | evaporation t u =>
    refine ⟨_, by simp only [energyTo, tabTo_ok he, ok_bind]; rw [add_ok rfl], ?_⟩
    simp [energyFrom, getAttr, Dict.get?, Val.toStr, Grp.attr, Grp.empty, Grp.dset, Dict.set, tabFrom_ok, Val.toNum]
  | watt a b u =>
    refine ⟨_, by simp only [energyTo, tabTo_ok he.1, tabTo_ok he.2, ok_bind]; rw [add_ok rfl]; simp only [ok_bind]; rw [add_ok rfl], ?_⟩
    simp [energyFrom, getAttr, Dict.get?, Val.toStr, Grp.attr, Grp.empty, Grp.dset, Dict.set, tabFrom_ok, Val.toNum]
  | madlandNix _ _ _ => exact he.elim
  | discretePhoton f en awr =>
    refine ⟨_, rfl, ?_⟩
    simp [energyFrom, getAttr, Dict.get?, Val.toStr, Grp.attr, Grp.empty, Dict.set, Val.toNum, Val.toInt]
  | level t r =>
    refine ⟨_, rfl, ?_⟩
    simp [energyFrom, getAttr, Dict.get?, Val.toStr, Grp.attr, Grp.empty, Dict.set, Val.toNum]
  | continuous h out =>
    obtain ⟨g', h1, h2, h3⟩ := continuous_round Grp.empty_free he.1 he.2
    refine ⟨g', h1, ?_⟩
    have : getAttr g'.attrs c!"type" = .ok (.str c!"continuous") := by rw [h2, getAttr_set]
    simp only [energyFrom, this, ok_bind, Val.toStr, h3]
    simp
  | unwritable => exact he.elim

end ASAPy.Hdf5
