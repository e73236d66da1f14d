import Verif.Hdf5.Round
import Mathlib.Algebra.Order.Field.Basic

/-!
# Angular, Kalbach-Mann and correlated distributions are read back
-/

namespace ASAPy.Hdf5

variable {K : Type}

theorem mapM_ok {α β : Type} {f : α → Except PyErr β} {h : α → β} {l : List α} (hl : ∀ a ∈ l, f a = .ok (h a)) : l.mapM f = .ok (l.map h) := by
  induction l with
  | nil => rfl
  | cons a l ih =>
    rw [List.mapM_cons, hl a (by simp), ih fun b hb => hl b (by simp [hb])]
    rfl

theorem mapM_ok' {α β : Type} {f : α → Except PyErr β} {l : List α} {r : List β} (hlen : l.length = r.length) (hl : ∀ i (hi : i < l.length) (hr : i < r.length), f l[i] = .ok r[i]) :
    l.mapM f = .ok r := by
  induction l generalizing r with
  | nil =>
    cases r with
    | nil => rfl
    | cons b r => simp at hlen
  | cons a l ih =>
    cases r with
    | nil => simp at hlen
    | cons b r =>
      rw [List.mapM_cons, show f a = .ok b from hl 0 (by simp) (by simp), ih (by simpa using hlen) fun i hi hr => hl (i + 1) (Nat.succ_lt_succ hi) (Nat.succ_lt_succ hr)]
      rfl

variable [Field K] [LinearOrder K]

/-- A tabular distribution. -/
def Uni.IsTab : Uni K → Prop
  | .tabular .. => True
  | _ => False

theorem putMu_eq (ds : List (Uni K)) (h : ∀ d ∈ ds, d.IsTab) : ∀ (j : Nat) (r : Rows K), putMu ds j r = (putAll ds j r).map fun q => (q.1, q.2.offsets, q.2.interpolation) := by
  induction ds with
  | nil => intro j r; rfl
  | cons d ds ih =>
    intro j r
    cases d with
    | tabular s x p c =>
      unfold putMu putAll putOut
      simp only [Uni.len]
      cases hr : r.put j x.length x p c with
      | error e => rfl
      | ok r' =>
        simp only [ok_bind]
        rw [ih fun d hd => h d (by simp [hd])]
        cases putAll ds (j + x.length) r' with
        | error e => rfl
        | ok q => rfl
    | uniform a b => exact False.elim (h (.uniform a b) (by simp))
    | discrete x p c => exact False.elim (h (.discrete x p c) (by simp))
    | mixture w dx dp dc s x p c => exact False.elim (h (.mixture w dx dp dc s x p c) (by simp))

theorem takeMu_app (ds : List (Uni K)) (h : ∀ d ∈ ds, d.IsTab ∧ d.Out false) : ∀ {px pp pc : List K} {po pi : List Int} {j nE : Nat},
    j = px.length → j = pp.length → j = pc.length → pi.length = po.length → nE = po.length + ds.length →
    takeMu (px ++ ds.flatMap Uni.points) (pp ++ ds.flatMap Uni.ps) (pc ++ ds.flatMap Uni.cs)
      (po ++ (indexOf ds j).offsets) (pi ++ (indexOf ds j).interpolation) nE ds.length po.length = .ok ds := by
  induction ds with
  | nil => intros; rfl
  | cons d ds ih =>
    intro px pp pc po pi j nE j1 j2 j3 l1 hE
    have hd := (h d (by simp)).2
    have ht := (h d (by simp)).1
    have hb := blockLen_app (ds := ds) (d := d) (po := po) (j := j) (nE := nE) (total := (px ++ (d.points ++ ds.flatMap Uni.points)).length) (by simpa using hE)
      (by simp only [List.length_append, List.length_flatMap, ← j1, d.len_points, show (fun a : Uni K => a.points.length) = Uni.len from funext fun a => a.len_points.symm]; omega)
    have hi : (pi ++ (indexOf (d :: ds) j).interpolation)[po.length]? = some d.linesCode.2 := by rw [← l1]; simp [indexOf]
    unfold takeMu
    simp only [List.flatMap_cons, List.length_cons]
    show (blockLen _ _ _ _ >>= _) = _
    rw [hb]
    simp only [ok_bind, hi]
    have := ih (fun d' h' => h d' (by simp [h'])) (px := px ++ d.points) (pp := pp ++ d.ps) (pc := pc ++ d.cs) (po := po ++ [(j : Int)]) (pi := pi ++ [d.linesCode.2])
      (j := j + d.len) (nE := nE) (by simp [j1, d.len_points]) (by simp [j2, hd.even.ps]) (by simp [j3, hd.even.cs])
      (by simp [l1]) (by simp [hE]; omega)
    simp only [List.append_assoc, List.cons_append, List.nil_append, List.length_append, List.length_cons, List.length_nil] at this
    rw [show po.length + 1 = po.length + (0 + 1) from rfl]
    simp only [indexOf]
    rw [this]
    rw [slice_app (by simp [j1]) (by simp [d.len_points]), slice_app (by simp [j2]) (by simp [hd.even.ps]), slice_app (by simp [j3]) (by simp [hd.even.cs])]
    cases d with
    | tabular s x p c =>
      obtain ⟨_, hs, hpos⟩ := hd
      simp only [Uni.linesCode, hs.ofCode, ok_bind, Uni.points, Uni.ps, Uni.cs, mkTabular, all_nonneg (hpos rfl), Bool.or_true, if_true]
    | uniform a b => exact ht.elim
    | discrete x p c => exact ht.elim
    | mixture w dx dp dc s x p c => exact ht.elim

theorem takeMu_all (ds : List (Uni K)) (h : ∀ d ∈ ds, d.IsTab ∧ d.Out false) :
    takeMu (ds.flatMap Uni.points) (ds.flatMap Uni.ps) (ds.flatMap Uni.cs) (indexOf ds 0).offsets (indexOf ds 0).interpolation ds.length ds.length 0 = .ok ds := by
  have := takeMu_app ds h (px := []) (pp := []) (pc := []) (po := []) (pi := []) (j := 0) (nE := ds.length) rfl rfl rfl rfl (by simp)
  simpa using this

variable [IsStrictOrderedRing K]

theorem Uni.Cosine.back {b : Bool} {d : Uni K} (h : d.Cosine b) : d.back.IsTab ∧ d.back.Out b ∧ asTabular d = .ok d.back := by
  cases d with
  | tabular s x p c => exact ⟨trivial, h, rfl⟩
  | uniform u v =>
    refine ⟨trivial, ⟨⟨by simp, rfl, rfl⟩, Or.inl rfl, fun _ y hy => ?_⟩, rfl⟩
    have : y = 1 / (v - u) := by simpa using hy
    rw [this]
    have hv : u < v := h
    exact one_div_nonneg.2 (sub_nonneg.2 hv.le)
  | discrete x p c => exact h.elim
  | mixture w dx dp dc s x p c => exact h.elim

theorem angle_round {a : Angle K} (h : a.Stored) : ∃ g', angleTo a = .ok g' ∧ angleFrom g' = .ok ⟨a.energy, a.mu.map Uni.back⟩ := by
  obtain ⟨he, hm⟩ := h
  have hall : ∀ d ∈ a.mu.map Uni.back, d.IsTab ∧ d.Out false := by
    intro d hd
    obtain ⟨d', hd', rfl⟩ := List.mem_map.1 hd
    exact ⟨(hm d' hd').back.1, (hm d' hd').back.2.1⟩
  unfold angleTo
  rw [add_ok rfl]
  simp only [ok_bind, mapM_ok fun d hd => (hm d hd).back.2.2]
  rw [putMu_eq _ fun d hd => (hall d hd).1, putAll_fresh _ fun d hd => (hall d hd).2.even]
  simp only [Except.map, ok_bind]
  rw [add_ok rfl]
  refine ⟨_, rfl, ?_⟩
  have hl : a.energy.length = (a.mu.map Uni.back).length := by simpa using he
  have := takeMu_all _ hall
  rw [← hl] at this
  simp [angleFrom, Grp.dset, Grp.empty, Dict.get?, Val.toVec, getAttr, Val.toInts, Val.toRows, row, this]

omit [IsStrictOrderedRing K] in
/-- One row more, as for the parameters of Kalbach and Mann. -/
theorem putKm_app (l : List (Uni K × Tab1D K × Tab1D K)) (h : ∀ e ∈ l, e.2.1.y.length = e.1.len ∧ e.2.2.y.length = e.1.len) : ∀ {p3 p4 r3 r4 : List K} {j : Nat}, j = p3.length → j = p4.length →
    r3.length = (l.map fun e => e.1.len).sum → r4.length = (l.map fun e => e.1.len).sum →
    putKm l j (p3 ++ r3, p4 ++ r4) = .ok (p3 ++ l.flatMap fun e => e.2.1.y, p4 ++ l.flatMap fun e => e.2.2.y) := by
  induction l with
  | nil =>
    intro p3 p4 r3 r4 j _ _ h3 h4
    have e3 : r3 = [] := List.length_eq_zero_iff.1 h3
    have e4 : r4 = [] := List.length_eq_zero_iff.1 h4
    subst e3 e4
    rfl
  | cons e l ih =>
    intro p3 p4 r3 r4 j j3 j4 h3 h4
    obtain ⟨d, kr, ka⟩ := e
    simp only [List.map_cons, List.sum_cons] at h3 h4
    obtain ⟨a3, b3, rfl, a3', b3'⟩ := split_at r3 h3
    obtain ⟨a4, b4, rfl, a4', b4'⟩ := split_at r4 h4
    obtain ⟨y3, y4⟩ := h (d, kr, ka) (by simp)
    simp only at y3 y4
    unfold putKm
    simp only [setSlice_app (y3.trans a3'.symm) j3 a3'.symm, setSlice_app (y4.trans a4'.symm) j4 a4'.symm, ok_bind]
    have := ih (fun e he => h e (by simp [he])) (p3 := p3 ++ kr.y) (p4 := p4 ++ ka.y) (j := j + d.len) (by simp [j3, y3]) (by simp [j4, y4]) b3' b4'
    simp only [List.append_assoc] at this
    rw [this]
    simp

omit [IsStrictOrderedRing K] in
theorem takeKm_app (ds : List (Uni K)) : ∀ {ts : List (Tab1D K)} {px py : List K} {po : List Int} {j nE : Nat}, ts.length = ds.length →
    (∀ i (hi : i < ds.length) (ht : i < ts.length), ∃ y, ts[i] = Tab1D.linlin ds[i].points y ∧ y.length = ds[i].points.length) →
    j = px.length → j = py.length → nE = po.length + ds.length →
    takeKm (px ++ ds.flatMap Uni.points) (py ++ ts.flatMap Tab1D.y) (po ++ (indexOf ds j).offsets) nE ds.length po.length = .ok ts := by
  induction ds with
  | nil =>
    intro ts px py po j nE hl _ _ _ _
    have : ts = [] := List.length_eq_zero_iff.1 hl
    subst this
    rfl
  | cons d ds ih =>
    intro ts px py po j nE hl ht j1 j2 hE
    cases ts with
    | nil => simp at hl
    | cons t ts =>
      obtain ⟨y, hy, ly⟩ := ht 0 (by simp) (by simp)
      simp only [List.getElem_cons_zero] at hy ly
      have hb := blockLen_app (ds := ds) (d := d) (po := po) (j := j) (nE := nE) (total := (px ++ (d.points ++ ds.flatMap Uni.points)).length) (by simpa using hE)
        (by simp only [List.length_append, List.length_flatMap, ← j1, d.len_points, show (fun a : Uni K => a.points.length) = Uni.len from funext fun a => a.len_points.symm]; omega)
      unfold takeKm
      simp only [List.flatMap_cons, List.length_cons]
      show (blockLen _ _ _ _ >>= _) = _
      rw [hb]
      simp only [ok_bind]
      have hty : t.y.length = d.points.length := by rw [hy]; exact ly
      have := ih (ts := ts) (by simpa using hl) (fun i hi h' => ht (i + 1) (Nat.succ_lt_succ hi) (Nat.succ_lt_succ h')) (px := px ++ d.points) (py := py ++ t.y) (po := po ++ [(j : Int)])
        (j := j + d.len) (nE := nE) (by simp [j1, d.len_points]) (by simp [j2, hty, d.len_points]) (by simp [hE]; omega)
      simp only [List.append_assoc, List.cons_append, List.nil_append, List.length_append, List.length_cons, List.length_nil] at this
      rw [show po.length + 1 = po.length + (0 + 1) from rfl]
      simp only [indexOf]
      rw [this]
      rw [slice_app (by simp [j1]) (by simp [d.len_points]), slice_app (by simp [j2]) (by simp [hty, d.len_points])]
      simp only [ok_bind]
      rw [hy]
      rfl

omit [IsStrictOrderedRing K] in
theorem kalbach_round {g : Grp K} (hg : g.Free) {h : Head K} {out : List (Uni K)} {r a : List (Tab1D K)} (hs : (Dist.kalbach h out r a).Stored) :
    ∃ g', kalbachTo g h out r a = .ok g' ∧ g'.attrs = Dict.set g.attrs c!"type" (.str c!"kalbach-mann") ∧ (∀ k ∉ names, Dict.get? g'.items k = Dict.get? g.items k) ∧ kalbachFrom g' = .ok (.kalbach h out r a) := by
  obtain ⟨⟨hb, he⟩, ho, hr, ha, hr', ha'⟩ := hs
  have hz : (out.zip (r.zip a)).map Prod.fst = out := List.map_fst_zip (by simp [hr, ha])
  have hz1 : ((out.zip (r.zip a)).flatMap fun e => e.2.1.y) = r.flatMap Tab1D.y := by
    rw [List.flatMap_def, List.flatMap_def]
    congr 1
    show List.map (Tab1D.y ∘ Prod.fst ∘ Prod.snd) _ = _
    rw [← List.map_map, ← List.map_map, List.map_snd_zip (by simp [hr, ha]), List.map_fst_zip (by simp [hr, ha])]
  have hz2 : ((out.zip (r.zip a)).flatMap fun e => e.2.2.y) = a.flatMap Tab1D.y := by
    rw [List.flatMap_def, List.flatMap_def]
    congr 1
    show List.map (Tab1D.y ∘ Prod.snd ∘ Prod.snd) _ = _
    rw [← List.map_map, ← List.map_map, List.map_snd_zip (by simp [hr, ha]), List.map_snd_zip (by simp [hr, ha])]
  have hsum : ((out.zip (r.zip a)).map fun e => e.1.len).sum = (out.map Uni.len).sum := by
    show (List.map (Uni.len ∘ Prod.fst) _).sum = _
    rw [← List.map_map, hz]
  have hlen : ∀ e ∈ out.zip (r.zip a), e.2.1.y.length = e.1.len ∧ e.2.2.y.length = e.1.len := by
    intro e he
    obtain ⟨i, hi, rfl⟩ := List.getElem_of_mem he
    have hi' : i < out.length := by simp [hr, ha] at hi; exact hi
    obtain ⟨y, e1, l1⟩ := hr' i hi' (by omega)
    obtain ⟨y', e2, l2⟩ := ha' i hi' (by omega)
    simp only [List.getElem_zip, e1, e2, Uni.len_points]
    exact ⟨l1, l2⟩
  unfold kalbachTo
  rw [headTo_ok hb (by simpa [Grp.attr] using hg _ (by simp [names]))]
  simp only [ok_bind, hz, putAll_fresh out (even_all ho)]
  have hk := putKm_app _ hlen (p3 := []) (p4 := []) (r3 := List.replicate (out.map Uni.len).sum 0) (r4 := List.replicate (out.map Uni.len).sum 0) (j := 0) rfl rfl (by simp [hsum]) (by simp [hsum])
  simp only [List.nil_append, hz1, hz2] at hk
  simp only [hk, ok_bind]
  rw [add_ok (by rw [get?_app]; simp [Grp.attr, hg _ (show c!"distribution" ∈ names by simp [names]), Dict.get?])]
  refine ⟨_, rfl, rfl, fun k hk => by simp [names] at hk; simp [Grp.attr, get?_app, Dict.get?, Ne.symm hk.1, Ne.symm hk.2.1, Ne.symm hk.2.2.1, Ne.symm hk.2.2.2.1, Ne.symm hk.2.2.2.2.1], ?_⟩
  unfold kalbachFrom
  rw [headFrom_ok (h := h) (by simp [Grp.attr, get?_app, hg _ (show c!"energy" ∈ names by simp [names]), Dict.get?])]
  simp only [ok_bind]
  rw [dset_of (v := .rows [out.flatMap Uni.points, out.flatMap Uni.ps, out.flatMap Uni.cs, r.flatMap Tab1D.y, a.flatMap Tab1D.y]) (a := (indexOf out 0).attrs)
    (by simp [Grp.attr, get?_app, hg _ (show c!"distribution" ∈ names by simp [names]), Dict.get?])]
  simp only [ok_bind, indexFrom_ok, Val.toRows, row]
  have k1 := takeKm_app out (ts := r) (px := []) (py := []) (po := []) (j := 0) (nE := out.length) hr hr' rfl rfl (by simp)
  have k2 := takeKm_app out (ts := a) (px := []) (py := []) (po := []) (j := 0) (nE := out.length) ha ha' rfl rfl (by simp)
  simp only [List.nil_append, List.length_nil] at k1 k2
  simp only [List.getElem?_cons_zero, List.getElem?_cons_succ, ok_bind, he, takeAll_all out ho, k1, k2]

/-! ### Correlated -/

/-- The cosines as stored: tables or lines. -/
def Uni.MuOk (d : Uni K) : Prop := match d with
  | .discrete x p c => (Uni.discrete x p c).Out true
  | .tabular s x p c => (Uni.tabular s x p c).Out true
  | _ => False

def muCode : Uni K → Int
  | .tabular s _ _ _ => s.code
  | _ => 0

def muOffsets : List (Uni K) → Nat → List Int
  | [], _ => []
  | d :: ds, o => (o : Int) :: muOffsets ds (o + d.len)

omit [Field K] [LinearOrder K] [IsStrictOrderedRing K] in
theorem muOffsets_length (ds : List (Uni K)) : ∀ o, (muOffsets ds o).length = ds.length := by
  induction ds with
  | nil => intro o; rfl
  | cons d ds ih => intro o; simp [muOffsets, ih]

omit [Field K] [LinearOrder K] [IsStrictOrderedRing K] in
theorem muOffsets_append (a b : List (Uni K)) : ∀ o, muOffsets (a ++ b) o = muOffsets a o ++ muOffsets b (o + (a.map Uni.len).sum) := by
  induction a with
  | nil => intro o; rfl
  | cons d a ih => intro o; simp [muOffsets, ih, Nat.add_assoc]

omit [IsStrictOrderedRing K] in
theorem Uni.MuOk.even {d : Uni K} (h : d.MuOk) : d.Even := by
  cases d with
  | discrete x p c => exact Uni.Out.even (b := true) h
  | tabular s x p c => exact Uni.Out.even (b := true) h
  | uniform a b => exact h.elim
  | mixture w dx dp dc s x p c => exact h.elim

omit [IsStrictOrderedRing K] in
theorem putMus_app (ds : List (Uni K)) (h : ∀ d ∈ ds, d.MuOk) : ∀ {px pp pc rx rp rc : List K} {qc qo sc so : List Int} {j o : Nat}, o = px.length → o = pp.length → o = pc.length →
    rx.length = (ds.map Uni.len).sum → rp.length = (ds.map Uni.len).sum → rc.length = (ds.map Uni.len).sum → j = qc.length → j = qo.length → sc.length = ds.length → so.length = ds.length →
    putMus ds j o ⟨⟨px ++ rx, pp ++ rp, pc ++ rc⟩, qc ++ sc, qo ++ so⟩ =
      .ok (o + (ds.map Uni.len).sum, ⟨⟨px ++ ds.flatMap Uni.points, pp ++ ds.flatMap Uni.ps, pc ++ ds.flatMap Uni.cs⟩, qc ++ ds.map muCode, qo ++ muOffsets ds o⟩) := by
  induction ds with
  | nil =>
    intro px pp pc rx rp rc qc qo sc so j o _ _ _ h1 h2 h3 _ _ h4 h5
    have e1 : rx = [] := List.length_eq_zero_iff.1 h1
    have e2 : rp = [] := List.length_eq_zero_iff.1 h2
    have e3 : rc = [] := List.length_eq_zero_iff.1 h3
    have e4 : sc = [] := List.length_eq_zero_iff.1 h4
    have e5 : so = [] := List.length_eq_zero_iff.1 h5
    subst e1 e2 e3 e4 e5
    rfl
  | cons d ds ih =>
    intro px pp pc rx rp rc qc qo sc so j o j1 j2 j3 h1 h2 h3 i1 i2 h4 h5
    simp only [List.map_cons, List.sum_cons] at h1 h2 h3
    obtain ⟨ax, bx, rfl, a1, b1⟩ := split_at rx h1
    obtain ⟨ap, bp, rfl, a2, b2⟩ := split_at rp h2
    obtain ⟨ac, bc, rfl, a3, b3⟩ := split_at rc h3
    cases sc with
    | nil => simp at h4
    | cons c0 sc =>
    cases so with
    | nil => simp at h5
    | cons o0 so =>
    have hd := h d (by simp)
    have hput := put_app (px := px) (pp := pp) (pc := pc) (mx := ax) (mp := ap) (mc := ac) (qx := bx) (qp := bp) (qc := bc) (x := d.points) (p := d.ps) (c := d.cs)
      j1 j2 j3 a1.symm a2.symm a3.symm d.len_points.symm hd.even.ps hd.even.cs
    have hset1 : ∀ c, (qc ++ c0 :: sc).set j c = (qc ++ [c]) ++ sc := by intro c; simp [i1]
    have hset2 : ∀ c, (qo ++ o0 :: so).set j c = (qo ++ [c]) ++ so := by intro c; simp [i2]
    have := ih (fun d' h' => h d' (by simp [h'])) (px := px ++ d.points) (pp := pp ++ d.ps) (pc := pc ++ d.cs) (qc := qc ++ [muCode d]) (qo := qo ++ [(o : Int)]) (sc := sc) (so := so)
      (j := j + 1) (o := o + d.len) (by simp [j1, d.len_points]) (by simp [j2, hd.even.ps]) (by simp [j3, hd.even.cs]) b1 b2 b3 (by simp [i1]) (by simp [i2])
      (by simpa using h4) (by simpa using h5)
    simp only [List.append_assoc, List.cons_append, List.nil_append] at this hset1 hset2
    have hfin : putMus ds (j + 1) (o + d.len) ⟨⟨px ++ (d.points ++ bx), pp ++ (d.ps ++ bp), pc ++ (d.cs ++ bc)⟩, (qc ++ c0 :: sc).set j (muCode d), (qo ++ o0 :: so).set j (o : Int)⟩ =
        .ok (o + ((d :: ds).map Uni.len).sum, ⟨⟨px ++ (d :: ds).flatMap Uni.points, pp ++ (d :: ds).flatMap Uni.ps, pc ++ (d :: ds).flatMap Uni.cs⟩, qc ++ (d :: ds).map muCode, qo ++ muOffsets (d :: ds) o⟩) := by
      rw [hset1, hset2, this]
      simp [muOffsets, Nat.add_assoc]
    have hj : j < (qc ++ c0 :: sc).length := by simp [i1]
    cases d with
    | discrete x p c =>
      unfold putMus
      simp only [ok_bind, if_pos hj]
      simp only [Uni.points, Uni.ps, Uni.cs, Uni.len] at hput
      simp only [hput, ok_bind]
      exact hfin
    | tabular s x p c =>
      unfold putMus
      simp only [ok_bind, if_pos hj]
      simp only [Uni.points, Uni.ps, Uni.cs, Uni.len] at hput
      simp only [hput, ok_bind]
      exact hfin
    | uniform a b => exact hd.elim
    | mixture w dx dp dc s x p c => exact hd.elim

omit [IsStrictOrderedRing K] in
theorem putMus_append (a b : List (Uni K)) : ∀ (j o : Nat) (s : MuState K), putMus (a ++ b) j o s = (putMus a j o s >>= fun q => putMus b (j + a.length) q.1 q.2) := by
  induction a with
  | nil => intro j o s; rfl
  | cons d a ih =>
    intro j o s
    simp only [List.cons_append, putMus, ih, List.length_cons, show j + (a.length + 1) = j + 1 + a.length by omega]
    cases d with
    | uniform a b => rfl
    | mixture w dx dp dc s x p c => rfl
    | discrete x p c =>
      simp only [ok_bind]
      split
      · cases s.mu.put o x.length x p c <;> rfl
      · rfl
    | tabular sch x p c =>
      simp only [ok_bind]
      split
      · cases s.mu.put o x.length x p c <;> rfl
      · rfl

omit [IsStrictOrderedRing K] in
theorem putMuAll_eq (l : List (Uni K × List (Uni K))) (h : ∀ e ∈ l, e.2.length = e.1.len) : ∀ (j o : Nat) (s : MuState K),
    putMuAll l j o s = (putMus (l.flatMap Prod.snd) j o s).map Prod.snd := by
  induction l with
  | nil => intro j o s; rfl
  | cons e l ih =>
    intro j o s
    obtain ⟨d, mus⟩ := e
    have hd : mus.length = d.len := h (d, mus) (by simp)
    simp only [putMuAll, List.flatMap_cons, putMus_append, hd]
    cases putMus mus j o s with
    | error e => rfl
    | ok q => simp only [ok_bind, ih fun e he => h e (by simp [he])]

omit [IsStrictOrderedRing K] in
/-- A cosine distribution is read back. -/
theorem takeMuAt_ok (a b : List (Uni K)) {d : Uni K} (hd : d.MuOk) (ha : ∀ d ∈ a, d.MuOk) :
    takeMuAt ((a ++ d :: b).map muCode) (muOffsets (a ++ d :: b) 0) ((a ++ d :: b).flatMap Uni.points) ((a ++ d :: b).flatMap Uni.ps) ((a ++ d :: b).flatMap Uni.cs) a.length = .ok d := by
  unfold takeMuAt
  have hc : ((a ++ d :: b).map muCode)[a.length]? = some (muCode d) := by simp
  have ho : (muOffsets (a ++ d :: b) 0)[a.length]? = some (((a.map Uni.len).sum : Nat) : Int) := by
    rw [muOffsets_append, List.getElem?_append_right (by simp [muOffsets_length])]
    simp [muOffsets_length, muOffsets]
  simp only [hc, ho]
  have hfp : (a.map fun x => x.points.length) = a.map Uni.len := List.map_congr_left fun x _ => x.len_points.symm
  have l1 : (a.map Uni.len).sum = (a.flatMap Uni.points).length := by rw [List.length_flatMap, hfp]
  have l2 : (a.map Uni.len).sum = (a.flatMap Uni.ps).length := by
    rw [List.length_flatMap]; congr 1; exact List.map_congr_left fun x hx => (ha x hx).even.ps.symm
  have l3 : (a.map Uni.len).sum = (a.flatMap Uni.cs).length := by
    rw [List.length_flatMap]; congr 1; exact List.map_congr_left fun x hx => (ha x hx).even.cs.symm
  have hfin : (if muCode d = 0 then mkDiscrete (slice ((a ++ d :: b).flatMap Uni.points) ((a.map Uni.len).sum : Nat) d.len) (slice ((a ++ d :: b).flatMap Uni.ps) ((a.map Uni.len).sum : Nat) d.len)
        (slice ((a ++ d :: b).flatMap Uni.cs) ((a.map Uni.len).sum : Nat) d.len)
      else Scheme.ofCode (muCode d) >>= fun sch => mkTabular true sch (slice ((a ++ d :: b).flatMap Uni.points) ((a.map Uni.len).sum : Nat) d.len)
        (slice ((a ++ d :: b).flatMap Uni.ps) ((a.map Uni.len).sum : Nat) d.len) (slice ((a ++ d :: b).flatMap Uni.cs) ((a.map Uni.len).sum : Nat) d.len)) = .ok d := by
    simp only [List.flatMap_append, List.flatMap_cons]
    rw [slice_app (by rw [l1]) (by rw [d.len_points]), slice_app (by rw [l2]) (by rw [hd.even.ps]), slice_app (by rw [l3]) (by rw [hd.even.cs])]
    cases d with
    | discrete x p c =>
      show mkDiscrete x p c = _
      unfold mkDiscrete
      rw [if_pos (all_nonneg hd.2)]
    | tabular s x p c =>
      have hs : s.Simple := hd.2.1
      rw [if_neg (by rcases hs with rfl | rfl <;> simp [muCode, Scheme.code])]
      simp only [muCode, hs.ofCode, ok_bind, mkTabular, Bool.true_or, if_true]
      rfl
    | uniform a b => exact hd.elim
    | mixture w dx dp dc s x p c => exact hd.elim
  cases b with
  | nil =>
    rw [if_neg (by simp)]
    simp only [ok_bind]
    have hn : (((a ++ [d]).flatMap Uni.points).length : Int) - (((a.map Uni.len).sum : Nat) : Int) = d.len := by
      simp only [List.flatMap_append, List.flatMap_cons, List.flatMap_nil, List.length_append, ← l1, ← d.len_points, List.length_nil]
      omega
    rw [hn]
    exact hfin
  | cons d' b =>
    have h2 : (muOffsets (a ++ d :: d' :: b) 0)[a.length + 1]? = some ((((a.map Uni.len).sum + d.len : Nat)) : Int) := by
      rw [muOffsets_append, List.getElem?_append_right (by simp [muOffsets_length])]
      simp [muOffsets_length, muOffsets]
    rw [if_pos (by simp)]
    simp only [h2, ok_bind]
    have hn : (((a.map Uni.len).sum + d.len : Nat) : Int) - (((a.map Uni.len).sum : Nat) : Int) = d.len := by push_cast; omega
    rw [hn]
    exact hfin

omit [Field K] [LinearOrder K] [IsStrictOrderedRing K] in
theorem sum_flat (m : List (List (Uni K))) : (m.map fun l => (l.map Uni.len).sum).sum = (m.flatten.map Uni.len).sum := by
  rw [List.map_flatten, List.sum_flatten, List.map_map]
  rfl

omit [IsStrictOrderedRing K] in
theorem takeMuAll_app (pi pl : List Int) (out : List (Uni K)) : ∀ {mu : List (List (Uni K))} {pre : List (Uni K)} {po : List Int} {j nE : Nat} {all : List (Uni K)}, all = pre ++ mu.flatten →
    (∀ d ∈ all, d.MuOk) → mu.length = out.length → (∀ i (hi : i < out.length) (hm : i < mu.length), mu[i].length = out[i].len) → j = pre.length → nE = po.length + out.length →
    takeMuAll ⟨po ++ (indexOf out j).offsets, pi, pl⟩ (all.map muCode) (muOffsets all 0) (all.flatMap Uni.points) (all.flatMap Uni.ps) (all.flatMap Uni.cs) nE out.length po.length = .ok mu := by
  induction out with
  | nil =>
    intro mu pre po j nE all _ _ hl _ _ _
    have : mu = [] := List.length_eq_zero_iff.1 hl
    subst this
    rfl
  | cons d out ih =>
    intro mu pre po j nE all hall hok hl hlen hj hE
    cases mu with
    | nil => simp at hl
    | cons m mu =>
      have hm : m.length = d.len := hlen 0 (by simp) (by simp)
      have hlen' : ∀ i (hi : i < out.length) (hm : i < mu.length), mu[i].length = out[i].len := fun i hi h' => hlen (i + 1) (Nat.succ_lt_succ hi) (Nat.succ_lt_succ h')
      have hsum : mu.flatten.length = (out.map Uni.len).sum := by
        rw [List.length_flatten]
        congr 1
        apply List.ext_getElem (by simpa using hl)
        intro i h1 h2
        simp only [List.getElem_map]
        exact hlen' i (by simpa using h2) (by simpa using h1)
      have hb := blockLen_app (ds := out) (d := d) (po := po) (j := j) (nE := nE) (total := (all.map muCode).length) (by simpa using hE)
        (by rw [hall]; simp only [List.length_map, List.length_append, List.flatten_cons]; omega)
      unfold takeMuAll
      simp only [List.length_cons]
      show (blockLen _ _ _ _ >>= _) = _
      rw [hb]
      simp only [ok_bind]
      have hmap : (List.range (d.len : Int).toNat).mapM (fun e => takeMuAt (all.map muCode) (muOffsets all 0) (all.flatMap Uni.points) (all.flatMap Uni.ps) (all.flatMap Uni.cs) ((j : Int).toNat + e)) =
          .ok m := by
        apply mapM_ok' (by simp [hm])
        intro i hi hi'
        simp only [List.getElem_range, Int.toNat_natCast]
        have hsplit : all = (pre ++ m.take i) ++ m[i] :: (m.drop (i + 1) ++ mu.flatten) := by
          rw [hall, List.flatten_cons]
          have : m = m.take i ++ m[i] :: m.drop (i + 1) := by rw [← List.drop_eq_getElem_cons hi', List.take_append_drop]
          conv_lhs => rw [this]
          simp only [List.append_assoc, List.cons_append]
        have hlen0 : (pre ++ m.take i).length = j + i := by simp [hj]; omega
        rw [← hlen0]
        have hmem : ∀ d' ∈ pre ++ m.take i, d'.MuOk := fun d' h' => hok d' (by rw [hsplit]; exact List.mem_append_left _ h')
        have hmi : (m[i]).MuOk := hok _ (by rw [hsplit]; simp)
        have := takeMuAt_ok (pre ++ m.take i) (m.drop (i + 1) ++ mu.flatten) hmi hmem
        rw [← hsplit] at this
        exact this
      rw [hmap]
      simp only [ok_bind]
      have := ih (mu := mu) (pre := pre ++ m) (po := po ++ [(j : Int)]) (j := j + d.len) (nE := nE) (all := all) (by simp [hall]) hok (by simpa using hl) hlen' (by simp [hj, hm]) (by simp [hE]; omega)
      simp only [List.append_assoc, List.cons_append, List.nil_append, List.length_append, List.length_cons, List.length_nil] at this
      simp only [indexOf]
      rw [show po.length + 1 = po.length + (0 + 1) from rfl, this]
      rfl

theorem Uni.CosineOrLines.back {d : Uni K} (h : d.CosineOrLines) : d.back.MuOk ∧ muTabular d = .ok d.back := by
  cases d with
  | discrete x p c => exact ⟨h, rfl⟩
  | tabular s x p c => exact ⟨h, rfl⟩
  | uniform a b => exact ⟨(Uni.Cosine.back (b := true) (d := .uniform a b) h).2.1, rfl⟩
  | mixture w dx dp dc s x p c => exact h.elim

theorem correlated_round {g : Grp K} (hg : g.Free) {h : Head K} {out : List (Uni K)} {mu : List (List (Uni K))} (hs : (Dist.correlated h out mu).Stored) :
    ∃ g', correlatedTo g h out mu = .ok g' ∧ g'.attrs = Dict.set g.attrs c!"type" (.str c!"correlated") ∧ (∀ k ∉ names, Dict.get? g'.items k = Dict.get? g.items k) ∧
      correlatedFrom g' = .ok (.correlated h out (mu.map fun l => l.map Uni.back)) := by
  obtain ⟨⟨hb, he⟩, ho, hl, hlen, hm⟩ := hs
  set mu' := mu.map fun l => l.map Uni.back with hmu'
  have hlen' : ∀ i (hi : i < out.length) (hm : i < mu'.length), mu'[i].length = out[i].len := by
    intro i hi hi'
    simp only [hmu', List.getElem_map, List.length_map, Uni.len_points]
    exact hlen i hi _
  have hl' : mu'.length = out.length := by simp [hmu', hl]
  have hok : ∀ d ∈ mu'.flatten, d.MuOk := by
    intro d hd
    obtain ⟨l, h1, h2⟩ := List.mem_flatten.1 hd
    obtain ⟨l', h3, rfl⟩ := List.mem_map.1 h1
    obtain ⟨d', h4, rfl⟩ := List.mem_map.1 h2
    exact (hm l' h3 d' h4).back.1
  have hx : out.mapM xLen = .ok (out.map Uni.len) := by
    apply mapM_ok
    intro d hd
    obtain ⟨h1, h2⟩ := ho d hd
    cases d with
    | uniform a b => exact h1.elim
    | discrete x p c => rfl
    | tabular s x p c => rfl
    | mixture w dx dp dc s x p c => exact (h2 _ _ _ _ _ _ _ _ rfl).elim
  have hmm : mu.mapM (fun l => l.mapM muTabular) = .ok mu' := mapM_ok fun l h1 => mapM_ok fun d h2 => (hm l h1 d h2).back.2
  have hout : ∀ d ∈ out, d.Out true := fun d hd => (ho d hd).1
  have hsum : mu'.flatten.length = (out.map Uni.len).sum := by
    rw [List.length_flatten]
    congr 1
    apply List.ext_getElem (by simpa using hl')
    intro i h1 h2
    simp only [List.getElem_map]
    exact hlen' i (by simpa using h2) (by simpa using h1)
  have hn : (mu'.map fun l => (l.map Uni.len).sum).sum = (mu'.flatten.map Uni.len).sum := sum_flat mu'
  have hz : (out.zip mu').flatMap Prod.snd = mu'.flatten := by
    rw [List.flatMap_def, List.map_snd_zip (by simp [hl'])]
  have hzl : ∀ e ∈ out.zip mu', e.2.length = e.1.len := by
    intro e he
    obtain ⟨i, hi, rfl⟩ := List.getElem_of_mem he
    have hi' : i < out.length := by simp at hi; omega
    simp only [List.getElem_zip]
    exact hlen' i hi' (by omega)
  unfold correlatedTo
  rw [headTo_ok hb (by simpa [Grp.attr] using hg _ (by simp [names]))]
  simp only [ok_bind, hx, hmm, putAll_fresh out (even_all hout)]
  rw [if_neg (by omega), putMuAll_eq _ hzl, hz, hn]
  have hp := putMus_app mu'.flatten hok (px := []) (pp := []) (pc := []) (qc := []) (qo := []) (rx := List.replicate (mu'.flatten.map Uni.len).sum 0)
    (rp := List.replicate (mu'.flatten.map Uni.len).sum 0) (rc := List.replicate (mu'.flatten.map Uni.len).sum 0) (sc := List.replicate (out.map Uni.len).sum 0)
    (so := List.replicate (out.map Uni.len).sum 0) (j := 0) (o := 0) rfl rfl rfl (by simp) (by simp) (by simp) rfl rfl (by simp [hsum]) (by simp [hsum])
  simp only [List.nil_append] at hp
  simp only [Rows.fresh, hp, Except.map, ok_bind]
  rw [add_ok (by rw [get?_app]; simp [Grp.attr, hg _ (show c!"energy_out" ∈ names by simp [names]), Dict.get?])]
  simp only [ok_bind]
  rw [add_ok (by simp [Grp.attr, get?_app, hg _ (show c!"mu" ∈ names by simp [names]), Dict.get?])]
  refine ⟨_, rfl, rfl, fun k hk => by simp [names] at hk; simp [Grp.attr, get?_app, Dict.get?, Ne.symm hk.1, Ne.symm hk.2.1, Ne.symm hk.2.2.1, Ne.symm hk.2.2.2.1, Ne.symm hk.2.2.2.2.1], ?_⟩
  unfold correlatedFrom
  rw [headFrom_ok (h := h) (by simp [Grp.attr, get?_app, hg _ (show c!"energy" ∈ names by simp [names]), Dict.get?])]
  simp only [ok_bind]
  rw [dset_of (v := .eout [out.flatMap Uni.points, out.flatMap Uni.ps, out.flatMap Uni.cs] (mu'.flatten.map muCode) (muOffsets mu'.flatten 0)) (a := (indexOf out 0).attrs)
    (by simp [Grp.attr, get?_app, hg _ (show c!"energy_out" ∈ names by simp [names]), Dict.get?]),
    dset_of (v := .rows [mu'.flatten.flatMap Uni.points, mu'.flatten.flatMap Uni.ps, mu'.flatten.flatMap Uni.cs]) (a := [])
    (by simp [Grp.attr, get?_app, hg _ (show c!"mu" ∈ names by simp [names]), Dict.get?])]
  simp only [ok_bind, indexFrom_ok, Val.toRows, Val.toEout, row]
  have hk := takeMuAll_app (indexOf out 0).interpolation (indexOf out 0).lines out (mu := mu') (pre := []) (po := []) (j := 0) (nE := out.length) (all := mu'.flatten) rfl hok hl' hlen' rfl (by simp)
  simp only [List.nil_append, List.length_nil] at hk
  simp only [List.getElem?_cons_zero, List.getElem?_cons_succ, ok_bind, he, takeAll_all out hout, hk]

/-! ### All distributions -/

theorem dist_round {g : Grp K} (hg : g.Free) {d : Dist K} (hd : d.Stored) : ∃ g', distTo g d = .ok g' ∧ (∀ k ∉ names, Dict.get? g'.items k = Dict.get? g.items k) ∧ distFrom g' = .ok (some d.back) := by
  cases d with
  | uncorrelated angle energy =>
    have ha := hg _ (show c!"angle" ∈ names by simp [names])
    have he := hg _ (show c!"energy" ∈ names by simp [names])
    cases angle with
    | none =>
      cases energy with
      | none =>
        refine ⟨_, rfl, fun _ _ => rfl, ?_⟩
        simp [distFrom, Grp.attr, getAttr_set, Val.toStr, Grp.has, ha, he, Dist.back]
      | some e =>
        obtain ⟨g2, h3, h4⟩ := energy_round (hd.2 e rfl)
        refine ⟨_, by simp only [distTo, h3, ok_bind]; rw [add_ok (by simpa [Grp.attr] using he)], fun k hk => by simp [names] at hk; simp [Grp.attr, get?_app, Dict.get?, Ne.symm hk.1, Ne.symm hk.2.1], ?_⟩
        simp [distFrom, Grp.attr, getAttr_set, Val.toStr, Grp.has, ha, he, Dist.back, get?_app, Dict.get?, Grp.group, Grp.node, h4]
    | some a =>
      obtain ⟨g1, h1, h2⟩ := angle_round (hd.1 a rfl)
      cases energy with
      | none =>
        refine ⟨_, by simp only [distTo, h1, ok_bind]; rw [add_ok (by simpa [Grp.attr] using ha)]; rfl, fun k hk => by simp [names] at hk; simp [Grp.attr, get?_app, Dict.get?, Ne.symm hk.1, Ne.symm hk.2.1], ?_⟩
        simp [distFrom, Grp.attr, getAttr_set, Val.toStr, Grp.has, ha, he, Dist.back, get?_app, Dict.get?, Grp.group, Grp.node, h2]
      | some e =>
        obtain ⟨g2, h3, h4⟩ := energy_round (hd.2 e rfl)
        refine ⟨_, by simp only [distTo, h1, ok_bind]; rw [add_ok (by simpa [Grp.attr] using ha)]; simp only [ok_bind, h3]; rw [add_ok (by simp [Grp.attr, get?_app, he, Dict.get?])], fun k hk => by simp [names] at hk; simp [Grp.attr, get?_app, Dict.get?, Ne.symm hk.1, Ne.symm hk.2.1], ?_⟩
        simp [distFrom, Grp.attr, getAttr_set, Val.toStr, Grp.has, ha, he, Dist.back, get?_app, Dict.get?, Grp.group, Grp.node, h2, h4]
  | kalbach h out r a =>
    obtain ⟨g', h1, h2, h4, h3⟩ := kalbach_round hg hd
    refine ⟨g', h1, h4, ?_⟩
    simp [distFrom, h2, getAttr_set, Val.toStr, h3, Dist.back]
  | correlated h out mu =>
    obtain ⟨g', h1, h2, h4, h3⟩ := correlated_round hg hd
    refine ⟨g', h1, h4, ?_⟩
    simp [distFrom, h2, getAttr_set, Val.toStr, h3, Dist.back]
  | nbody mass n awr q =>
    refine ⟨_, rfl, fun _ _ => rfl, ?_⟩
    simp [distFrom, Grp.attr, getAttr_set, getAttr_set_ne, Val.toStr, Val.toNum, Val.toInt, Dist.back]

end ASAPy.Hdf5
