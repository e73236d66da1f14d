import Verif.Hdf5.Spec
import Mathlib.Tactic.SplitIfs
import Mathlib.Tactic.Linarith
import Mathlib.Algebra.Order.Ring.Defs

/-!
# Packing and unpacking
-/

namespace ASAPy.Hdf5

variable {K : Type} [Field K] [LinearOrder K]

@[simp] theorem ok_bind {α β : Type} (a : α) (f : α → Except PyErr β) : (Except.ok a >>= f) = f a := rfl
@[simp] theorem error_bind {α β : Type} (e : PyErr) (f : α → Except PyErr β) : ((Except.error e : Except PyErr α) >>= f) = .error e := rfl

theorem setSlice_app {α : Type} {pre mid post v : List α} (h : v.length = mid.length) {j n : Nat} (hj : j = pre.length) (hn : n = mid.length) :
    setSlice (pre ++ (mid ++ post)) j n v = .ok (pre ++ (v ++ post)) := by
  subst hj hn
  unfold setSlice
  have h1 : (pre ++ (mid ++ post)).drop (pre.length + mid.length) = post := by
    rw [← List.append_assoc, ← List.length_append, List.drop_left]
  simp [h1, h]

theorem slice_app {α : Type} {pre mid post : List α} {j n : Int} (hj : j = pre.length) (hn : n = mid.length) : slice (pre ++ (mid ++ post)) j n = mid := by
  subst hj hn
  simp [slice]

/-- The columns of a distribution. -/
def Uni.ps : Uni K → List K
  | .uniform _ _ => []
  | .discrete _ p _ => p
  | .tabular _ _ p _ => p
  | .mixture _ _ dp _ _ _ p _ => dp ++ p
def Uni.cs : Uni K → List K
  | .uniform _ _ => []
  | .discrete _ _ c => c
  | .tabular _ _ _ c => c
  | .mixture _ _ _ dc _ _ _ c => dc ++ c
def Uni.linesCode : Uni K → Int × Int
  | .uniform _ _ => (0, 0)
  | .discrete x _ _ => (x.length, 1)
  | .tabular s _ _ _ => (0, s.code)
  | .mixture _ dx _ _ s _ _ _ => (dx.length, s.code)

theorem Uni.len_points (d : Uni K) : d.len = d.points.length := by cases d <;> simp [Uni.len, Uni.points]

/-- The columns have one length. -/
def Uni.Even (d : Uni K) : Prop := match d with
  | .uniform _ _ => False
  | .discrete x p c => p.length = x.length ∧ c.length = x.length
  | .tabular _ x p c => p.length = x.length ∧ c.length = x.length
  | .mixture _ dx dp dc _ x p c => dp.length = dx.length ∧ dc.length = dx.length ∧ p.length = x.length ∧ c.length = x.length

theorem Uni.Out.even {b : Bool} {d : Uni K} (h : d.Out b) : d.Even := by
  cases d with
  | uniform a b => exact h
  | discrete x p c => exact h.1.2
  | tabular s x p c => exact h.1.2
  | mixture w dx dp dc s x p c => exact ⟨h.1.2.1, h.1.2.2, h.2.2.1.2.1, h.2.2.1.2.2⟩

theorem Uni.Even.ps {d : Uni K} (h : d.Even) : d.ps.length = d.len := by
  cases d with
  | uniform a b => exact h.elim
  | discrete x p c => exact h.1
  | tabular s x p c => exact h.1
  | mixture w dx dp dc s x p c => simp [Uni.ps, Uni.len, h.1, h.2.2.1]

theorem Uni.Even.cs {d : Uni K} (h : d.Even) : d.cs.length = d.len := by
  cases d with
  | uniform a b => exact h.elim
  | discrete x p c => exact h.2
  | tabular s x p c => exact h.2
  | mixture w dx dp dc s x p c => simp [Uni.cs, Uni.len, h.2.1, h.2.2.2]

/-- Filling the rows. -/
theorem put_app {px pp pc mx mp mc qx qp qc x p c : List K} {j n : Nat} (h1 : j = px.length) (h2 : j = pp.length) (h3 : j = pc.length)
    (m1 : n = mx.length) (m2 : n = mp.length) (m3 : n = mc.length) (l1 : x.length = n) (l2 : p.length = n) (l3 : c.length = n) :
    Rows.put ⟨px ++ (mx ++ qx), pp ++ (mp ++ qp), pc ++ (mc ++ qc)⟩ j n x p c = .ok ⟨px ++ (x ++ qx), pp ++ (p ++ qp), pc ++ (c ++ qc)⟩ := by
  unfold Rows.put
  simp only [setSlice_app (l1.trans m1) h1 m1, setSlice_app (l2.trans m2) h2 m2, setSlice_app (l3.trans m3) h3 m3, ok_bind]

theorem split_at {α : Type} (l : List α) {n k : Nat} (h : l.length = n + k) : ∃ a b, l = a ++ b ∧ a.length = n ∧ b.length = k :=
  ⟨l.take n, l.drop n, (List.take_append_drop n l).symm, by simp [h], by simp [h]⟩

theorem putOut_app {d : Uni K} (h : d.Even) {px pp pc mx mp mc qx qp qc : List K} {j : Nat} (h1 : j = px.length) (h2 : j = pp.length) (h3 : j = pc.length)
    (m1 : mx.length = d.len) (m2 : mp.length = d.len) (m3 : mc.length = d.len) :
    putOut ⟨px ++ (mx ++ qx), pp ++ (mp ++ qp), pc ++ (mc ++ qc)⟩ j d = .ok (⟨px ++ (d.points ++ qx), pp ++ (d.ps ++ qp), pc ++ (d.cs ++ qc)⟩, d.linesCode.1, d.linesCode.2) := by
  cases d with
  | uniform a b => exact h.elim
  | discrete x p c =>
    unfold putOut
    simp only [put_app h1 h2 h3 m1.symm m2.symm m3.symm rfl h.1 h.2, ok_bind]
    rfl
  | tabular s x p c =>
    unfold putOut
    simp only [put_app h1 h2 h3 m1.symm m2.symm m3.symm rfl h.1 h.2, ok_bind]
    rfl
  | mixture w dx dp dc s x p c =>
    obtain ⟨e1, e2, e3, e4⟩ := h
    obtain ⟨ax, bx, rfl, a1, b1⟩ := split_at mx m1
    obtain ⟨ap, bp, rfl, a2, b2⟩ := split_at mp m2
    obtain ⟨ac, bc, rfl, a3, b3⟩ := split_at mc m3
    unfold putOut
    simp only [List.append_assoc]
    rw [put_app h1 h2 h3 a1.symm a2.symm a3.symm rfl e1 e2]
    simp only [ok_bind]
    have hn : (j + (Uni.mixture w dx dp dc s x p c).len) - (j + dx.length) = x.length := by simp [Uni.len]; omega
    rw [hn]
    have := put_app (px := px ++ dx) (pp := pp ++ dp) (pc := pc ++ dc) (mx := bx) (mp := bp) (mc := bc) (qx := qx) (qp := qp) (qc := qc) (x := x) (p := p) (c := c)
      (j := j + dx.length) (n := x.length) (by simp [h1]) (by simp [h2, e1]) (by simp [h3, e2]) b1.symm b2.symm b3.symm rfl e3 e4
    simp only [List.append_assoc] at this
    rw [this]
    simp [Uni.points, Uni.ps, Uni.cs, Uni.linesCode]

/-- The index for distributions from position `j` on. -/
def indexOf : List (Uni K) → Nat → Index
  | [], _ => ⟨[], [], []⟩
  | d :: ds, j => ⟨(j : Int) :: (indexOf ds (j + d.len)).offsets, d.linesCode.2 :: (indexOf ds (j + d.len)).interpolation, d.linesCode.1 :: (indexOf ds (j + d.len)).lines⟩

theorem putAll_app (ds : List (Uni K)) (h : ∀ d ∈ ds, d.Even) : ∀ {px pp pc rx rp rc : List K} {j : Nat}, j = px.length → j = pp.length → j = pc.length →
    rx.length = (ds.map Uni.len).sum → rp.length = (ds.map Uni.len).sum → rc.length = (ds.map Uni.len).sum →
    putAll ds j ⟨px ++ rx, pp ++ rp, pc ++ rc⟩ = .ok (⟨px ++ ds.flatMap Uni.points, pp ++ ds.flatMap Uni.ps, pc ++ ds.flatMap Uni.cs⟩, indexOf ds j) := by
  induction ds with
  | nil =>
    intro px pp pc rx rp rc j _ _ _ h1 h2 h3
    have e1 : rx = [] := List.length_eq_zero_iff.1 h1
    have e2 : rp = [] := List.length_eq_zero_iff.1 h2
    have e3 : rc = [] := List.length_eq_zero_iff.1 h3
    subst e1 e2 e3
    rfl
  | cons d ds ih =>
    intro px pp pc rx rp rc j j1 j2 j3 h1 h2 h3
    simp only [List.map_cons, List.sum_cons] at h1 h2 h3
    obtain ⟨ax, bx, rfl, a1, b1⟩ := split_at rx h1
    obtain ⟨ap, bp, rfl, a2, b2⟩ := split_at rp h2
    obtain ⟨ac, bc, rfl, a3, b3⟩ := split_at rc h3
    have hd := h d (by simp)
    unfold putAll
    rw [putOut_app hd j1 j2 j3 a1 a2 a3]
    simp only [ok_bind]
    have := ih (fun d' h' => h d' (by simp [h'])) (px := px ++ d.points) (pp := pp ++ d.ps) (pc := pc ++ d.cs) (j := j + d.len)
      (by simp [j1, d.len_points]) (by simp [j2, hd.ps]) (by simp [j3, hd.cs]) b1 b2 b3
    simp only [List.append_assoc] at this
    rw [this]
    simp [indexOf]

theorem Rows.fresh_eq (n : Nat) : (Rows.fresh n : Rows K) = ⟨[] ++ List.replicate n 0, [] ++ List.replicate n 0, [] ++ List.replicate n 0⟩ := rfl

theorem putAll_fresh (ds : List (Uni K)) (h : ∀ d ∈ ds, d.Even) :
    putAll ds 0 (Rows.fresh (ds.map Uni.len).sum) = .ok (⟨ds.flatMap Uni.points, ds.flatMap Uni.ps, ds.flatMap Uni.cs⟩, indexOf ds 0) := by
  have := putAll_app ds h (px := []) (pp := []) (pc := []) (rx := List.replicate (ds.map Uni.len).sum 0) (rp := List.replicate (ds.map Uni.len).sum 0)
    (rc := List.replicate (ds.map Uni.len).sum 0) (j := 0) rfl rfl rfl (by simp) (by simp) (by simp)
  simp only [List.nil_append] at this
  exact this

theorem indexOf_offsets_length (ds : List (Uni K)) : ∀ j, (indexOf ds j).offsets.length = ds.length := by
  induction ds with
  | nil => intro j; rfl
  | cons d ds ih => intro j; simp [indexOf, ih]

/-- The block of a distribution. -/
theorem blockLen_app {ds : List (Uni K)} {d : Uni K} {po : List Int} {j nE total : Nat} (hE : nE = po.length + (ds.length + 1)) (ht : total = j + d.len + (ds.map Uni.len).sum) :
    blockLen (po ++ (indexOf (d :: ds) j).offsets) total nE po.length = .ok ((j : Int), (d.len : Int)) := by
  unfold blockLen
  have h1 : (po ++ (indexOf (d :: ds) j).offsets)[po.length]? = some (j : Int) := by simp [indexOf]
  simp only [h1]
  cases ds with
  | nil =>
    rw [if_neg (by simp [hE])]
    simp at ht
    simp [ht]
  | cons d' ds =>
    have h2 : (po ++ (indexOf (d :: d' :: ds) j).offsets)[po.length + 1]? = some ((j + d.len : Nat) : Int) := by
      rw [List.getElem?_append_right (by omega)]
      simp [indexOf]
    simp only [h2]
    rw [if_pos (by simp [hE])]
    simp

theorem all_nonneg {p : List K} (h : ∀ y ∈ p, 0 ≤ y) : (p.all fun y => decide (0 ≤ y)) = true := by simpa using h

theorem Scheme.Simple.ofCode {s : Scheme} (h : s.Simple) : Scheme.ofCode s.code = .ok s := by
  rcases h with rfl | rfl <;> rfl

theorem slice_zero {α : Type} (r : List α) (j : Int) : slice r j 0 = [] := by simp [slice]

/-- One distribution is read back. -/
theorem takeOut_app {signed : Bool} {d : Uni K} (h : d.Out signed) {px pp pc qx qp qc : List K} {ix : Index} {j nE i : Nat} {last : Option (Uni K)}
    (h1 : j = px.length) (h2 : j = pp.length) (h3 : j = pc.length)
    (hb : blockLen ix.offsets (px ++ (d.points ++ qx)).length nE i = .ok ((j : Int), (d.len : Int))) (hl : ix.lines[i]? = some d.linesCode.1)
    (hi : ix.interpolation[i]? = some d.linesCode.2) :
    ∃ last', takeOut signed ⟨px ++ (d.points ++ qx), pp ++ (d.ps ++ qp), pc ++ (d.cs ++ qc)⟩ ix nE i last = .ok (d, last') := by
  unfold takeOut
  simp only [hb, ok_bind, hl]
  cases d with
  | uniform a b => exact h.elim
  | discrete x p c =>
    obtain ⟨⟨hx, hp, hc⟩, hpos⟩ := h
    have hpos' : 0 < (x.length : Int) := by have := List.length_pos_iff.2 hx; omega
    simp only [Uni.linesCode, Uni.points, Uni.ps, Uni.cs, Uni.len]
    rw [slice_app (by simp [h1]) rfl, slice_app (by simp [h2]) (by simp [hp]), slice_app (by simp [h3]) (by simp [hc])]
    simp only [if_pos hpos', mkDiscrete, all_nonneg hpos, if_true, ok_bind, lt_irrefl, if_false]
    rw [if_neg (by omega)]
    exact ⟨_, rfl⟩
  | tabular s x p c =>
    obtain ⟨⟨hx, hp, hc⟩, hs, hpos⟩ := h
    have hpos' : 0 < (x.length : Int) := by have := List.length_pos_iff.2 hx; omega
    simp only [Uni.linesCode, Uni.points, Uni.ps, Uni.cs, Uni.len] at hi ⊢
    simp only [hi, lt_irrefl, if_false, ok_bind, if_pos hpos', hs.ofCode]
    rw [slice_app (by simp [h1]) (by simp), slice_app (by simp [h2]) (by simp [hp]), slice_app (by simp [h3]) (by simp [hc])]
    have hk : mkTabular signed s x p c = .ok (.tabular s x p c) := by
      unfold mkTabular
      cases signed with
      | true => rfl
      | false => rw [all_nonneg (hpos rfl)]; rfl
    simp only [hk, ok_bind, if_true]
    exact ⟨_, rfl⟩
  | mixture w dx dp dc s x p c =>
    obtain ⟨⟨hx, hp, hc⟩, hpos, ⟨hx', hp', hc'⟩, hs, hpos', t, ht, hw, ht0, ht1⟩ := h
    have hp1 : 0 < (dx.length : Int) := by have := List.length_pos_iff.2 hx; omega
    have hp2 : 0 < (x.length : Int) := by have := List.length_pos_iff.2 hx'; omega
    simp only [Uni.linesCode, Uni.points, Uni.ps, Uni.cs, Uni.len] at hi ⊢
    simp only [hi, if_pos hp1, ok_bind]
    simp only [List.append_assoc]
    rw [slice_app (by simp [h1]) rfl, slice_app (by simp [h2]) (by simp [hp]), slice_app (by simp [h3]) (by simp [hc])]
    have hlt : (dx.length : Int) < ((dx.length + x.length : Nat) : Int) := by push_cast; omega
    have e1 : slice (px ++ (dx ++ (x ++ qx))) ((j : Int) + dx.length) (((dx.length + x.length : Nat) : Int) - dx.length) = x := by
      rw [← List.append_assoc]; exact slice_app (by simp [h1]) (by push_cast; omega)
    have e2 : slice (pp ++ (dp ++ (p ++ qp))) ((j : Int) + dx.length) (((dx.length + x.length : Nat) : Int) - dx.length) = p := by
      rw [← List.append_assoc]; exact slice_app (by simp [h2, hp]) (by push_cast; omega)
    have e3 : slice (pc ++ (dc ++ (c ++ qc))) ((j : Int) + dx.length) (((dx.length + x.length : Nat) : Int) - dx.length) = c := by
      rw [← List.append_assoc]; exact slice_app (by simp [h3, hc]) (by push_cast; omega)
    rw [e1, e2, e3]
    have hk : mkTabular signed s x p c = .ok (.tabular s x p c) := by
      unfold mkTabular
      cases signed with
      | true => rfl
      | false => rw [all_nonneg (hpos' rfl)]; rfl
    simp only [hs.ofCode, hk, mkDiscrete, all_nonneg hpos, ok_bind, if_true, ht, if_pos hlt]
    rw [if_neg (by omega), if_neg (by push_cast; omega)]
    simp only [mkMixture, ok_bind, hw, ht0, ht1, and_self, if_true]
    exact ⟨_, rfl⟩

/-- All distributions are read back. -/
theorem takeAll_app {signed : Bool} (ds : List (Uni K)) (h : ∀ d ∈ ds, d.Out signed) : ∀ {px pp pc : List K} {po pi pl : List Int} {j nE : Nat} {last : Option (Uni K)},
    j = px.length → j = pp.length → j = pc.length → pi.length = po.length → pl.length = po.length → nE = po.length + ds.length →
    takeAll signed ⟨px ++ ds.flatMap Uni.points, pp ++ ds.flatMap Uni.ps, pc ++ ds.flatMap Uni.cs⟩
      ⟨po ++ (indexOf ds j).offsets, pi ++ (indexOf ds j).interpolation, pl ++ (indexOf ds j).lines⟩ nE ds.length po.length last = .ok ds := by
  induction ds with
  | nil => intros; rfl
  | cons d ds ih =>
    intro px pp pc po pi pl j nE last j1 j2 j3 l1 l2 hE
    have hd := h d (by simp)
    have hb := blockLen_app (ds := ds) (d := d) (po := po) (j := j) (nE := nE) (total := (px ++ (d.points ++ ds.flatMap Uni.points)).length) (by simpa using hE)
      (by simp only [List.length_append, List.length_flatMap, ← j1, d.len_points, show (fun a : Uni K => a.points.length) = Uni.len from funext fun a => a.len_points.symm]; omega)
    obtain ⟨last', hl⟩ := takeOut_app (last := last) (i := po.length) (qx := ds.flatMap Uni.points) (qp := ds.flatMap Uni.ps) (qc := ds.flatMap Uni.cs)
      (ix := ⟨po ++ (indexOf (d :: ds) j).offsets, pi ++ (indexOf (d :: ds) j).interpolation, pl ++ (indexOf (d :: ds) j).lines⟩) hd j1 j2 j3 hb
      (by rw [← l2]; simp [indexOf]) (by rw [← l1]; simp [indexOf])
    unfold takeAll
    simp only [List.flatMap_cons, List.length_cons]
    show (takeOut _ _ _ _ _ _ >>= _) = _
    rw [hl]
    simp only [ok_bind]
    have := ih (fun d' h' => h d' (by simp [h'])) (px := px ++ d.points) (pp := pp ++ d.ps) (pc := pc ++ d.cs) (po := po ++ [(j : Int)]) (pi := pi ++ [d.linesCode.2])
      (pl := pl ++ [d.linesCode.1]) (j := j + d.len) (nE := nE) (last := last') (by simp [j1, d.len_points]) (by simp [j2, hd.even.ps]) (by simp [j3, hd.even.cs])
      (by simp [l1]) (by simp [l2]) (by simp [hE]; omega)
    simp only [List.append_assoc, List.cons_append, List.nil_append, List.length_append, List.length_cons, List.length_nil] at this
    rw [show po.length + 1 = po.length + (0 + 1) from rfl]
    simp only [indexOf]
    rw [this]
    rfl

theorem takeAll_all {signed : Bool} (ds : List (Uni K)) (h : ∀ d ∈ ds, d.Out signed) :
    takeAll signed ⟨ds.flatMap Uni.points, ds.flatMap Uni.ps, ds.flatMap Uni.cs⟩ (indexOf ds 0) ds.length ds.length 0 none = .ok ds := by
  have := takeAll_app (signed := signed) ds h (px := []) (pp := []) (pc := []) (po := []) (pi := []) (pl := []) (j := 0) (nE := ds.length) (last := none)
    rfl rfl rfl rfl rfl (by simp)
  simpa using this

end ASAPy.Hdf5
