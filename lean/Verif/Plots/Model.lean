import Verif.Run.Model
import Verif.Flt
import Verif.Chars
import Verif.Tab1D.RealExpLog
import Mathlib.Data.Real.Sqrt
import Mathlib.Algebra.BigOperators.Fin

/-!
# Model of the plots of XsecSampler (ASAPy/XsecSampler.py 389-718)

What is handed to matplotlib: the points of the curves, the cells of the correlation maps and their colour range, and the names of the files. matplotlib
itself (axes, labels, legends, scales) is not modelled, and the option `corr_rel_diff`, which nothing uses, is left out. Numbers are exact.
-/

namespace ASAPy.Plots
open ASAPy.Ace

/-- The columns `e high`, `e low`, `s.d.(1)` and `rel.s.d.(1)` of the frame `load_zaid_mt` returns. -/
structure Groups (K : Type*) where
  high : List K
  low : List K
  sd : List K
  rel : List K

/-- `ax.plot(x, y, drawstyle='steps-post')`. -/
structure Steps (K : Type*) where
  x : List K
  y : List (Flt K)

/-- `ax.pcolormesh(X, Y, vals, vmin=vmin, vmax=vmax)` with `X, Y = np.meshgrid(edges, edges)`. -/
structure Mesh (K : Type*) where
  edges : List K
  vals : List (List K)
  vmin : K
  vmax : K

/-- The figure `few_sampled_xsec`: energies, base values, the sampled curves, and whether the vertical axis is logarithmic. -/
structure Few (K : Type*) where
  es : List K
  base : List K
  curves : List (List K)
  logY : Bool
deriving DecidableEq

section
variable {K : Type*} [Field K] [LinearOrder K]

/-- `l.append(f(l[-1]))` for a list `l`. -/
def withLast {α : Type*} (f : α → α) (l : List α) : Except PyErr (List α) :=
  match l.getLast? with
  | none => .error .indexError
  | some v => .ok (l ++ [f v])

/-- Mean of the `m` samples of a group. -/
def mean {m : Nat} (r : Fin m → K) : K := (∑ k, r k) / m

/-- An entry of `np.cov(rows)` (one row per group, one column per sample); with less than two samples it is NaN. -/
def cov {m : Nat} (r s : Fin m → K) : Flt K :=
  if m ≤ 1 then .nan else .fin ((∑ k, (r k - mean r) * (s k - mean s)) / ((m : K) - 1))

/-- `np.diag(np.cov(rows))`: for a single row `np.cov` returns a number, which `np.diag` rejects. -/
def diagCov {m : Nat} (rows : List (Fin m → K)) : Except PyErr (List (Flt K)) :=
  if rows.length = 1 then .error .valueError else .ok (rows.map fun r => cov r r)

/-- XsecSampler.py 476-487: the curves of the figure `sampled_cov`. -/
def covSteps {m : Nat} (g : Groups K) (rows : List (Fin m → K)) : Except PyErr (Steps K × Steps K) := do
  let x ← withLast (· / 2) g.high                                                     -- 476-477
  let y ← withLast id (g.sd.map fun s => Flt.fin (s ^ 2))                             -- 479-480
  let v ← diagCov rows                                                                -- 482
  let y2 ← withLast id v                                                              -- 483
  .ok (⟨x, y⟩, ⟨x, y2⟩)

/-- XsecSampler.py 680-692: the curve of the relative deviations in the figure `base_xsec_with_std`; `e` are the energies of the ACE file. -/
def relSteps (g : Groups K) (e : List K) : Except PyErr (Steps K) :=
  match e.head?, g.high.getLast? with
  | some e0, some h =>
    if e0 < h then do                                                                 -- 680
      let y ← withLast id (g.rel.map fun r => Flt.fin (r * 100))                      -- 684-685
      .ok ⟨g.high ++ [e0], y⟩                                                         -- 681-682
    else .ok ⟨g.high, g.rel.map fun r => Flt.fin (r * 100)⟩                           -- 688-689
  | _, _ => .error .indexError

/-- XsecSampler.py 550-560: the edges of the cells of the correlation maps. -/
def corrEdges (g : Groups K) : Except PyErr (List K) :=
  match g.low.getLast? with
  | none => .error .indexError
  | some l => do
    let bottom ← (if l = 0 then (match pyGet g.low (-2) with                          -- 553-554
      | none => .error .indexError
      | some l2 => .ok (l2 / 2)) else .ok l)
    .ok (g.high ++ [bottom]).reverse                                                  -- 558-559

/-- `np.flipud(np.fliplr(c))`. -/
def flip (c : List (List K)) : List (List K) := (c.map List.reverse).reverse

/-- `np.diag(c) == 0`. -/
def zeroDiag (c : List (List K)) : List Bool := c.zipIdx.map fun (r, i) => decide (r[i]? = some 0)

/-- XsecSampler.py 575-576: rows and columns marked by `z` are set to 0; `z` must have the matrix's size. -/
def blank (z : List Bool) (c : List (List K)) : Except PyErr (List (List K)) :=
  if z.length = c.length then
    .ok (List.zipWith (fun b r => if b then r.map fun _ => 0 else List.zipWith (fun b v => if b then 0 else v) z r) z c)
  else .error .indexError

/-- XsecSampler.py 578-589: the colour range, for the original and the sampled matrix. -/
def colourRange (useMax : Bool) (c c2 : List (List K)) : Except PyErr (K × K) :=
  match c.flatten.max?, c.flatten.min?, c2.flatten.max?, c2.flatten.min? with
  | some cmax, some cmin, some smax, some smin =>
    let vmin := if useMax then -1 else cmax                                           -- 579, 582
    let vmax := if useMax then 1 else cmin                                            -- 580, 583
    let vmax := if smax > vmax then smax else vmax                                    -- 585-586
    let vmin := if smin < vmin then smin else vmin                                    -- 588-589
    .ok (vmin, vmax)
  | _, _, _, _ => .error .valueError

/-- XsecSampler.py 531-537: `max(nonzero)/min(nonzero) > 1000`; of nothing there is no maximum. -/
def fewLog (st : List K) : Except PyErr Bool :=
  match (st.filter (· ≠ 0)).max?, (st.filter (· ≠ 0)).min? with
  | some a, some b => .ok (decide (a / b > 1000))
  | _, _ => .error .valueError

end

section
variable {K : Type*} [Field K] [LinearOrder K] [ExpLog K]

/-- `get_mt_from_ace`, XsecSampler.py 389-424, and lines 512-514 (666-668): of a fission spectrum only the first incident energy is shown. The
editor is that of the file, as it was loaded. -/
def fromAce (ed : Editor K) (mt : Nat) : Except PyErr (List K × List K) :=
  if mt = 452 then (getNuDistro ed false).map fun t => (t.x, t.y)
  else if mt = 1018 then
    match getChiDistro ed false with
    | .error e => .error e
    | .ok chi => match chi.energyOut with
      | [] => .error .indexError
      | d :: _ => .ok (d.x, d.p)
  else match getEnergy ed mt with
    | .error e => .error e
    | .ok (.pdfs _) => .error .typeError
    | .ok (.arr es) => match getSigma ed mt (some es) false with
      | .error e => .error e
      | .ok (.pdfs _) => .error .typeError
      | .ok (.arr st) => .ok (es, st)

/-- XsecSampler.py 520-524 for the given samples. -/
def curves (g : Groups K) (es st : List K) : List (Series K) → Except PyErr (List (List K))
  | [] => .ok []
  | col :: cols => match Sampled.factorTimes g.high g.low col es st with
    | .error e => .error e
    | .ok v => match curves g es st cols with
      | .error e => .error e
      | .ok vs => .ok (v :: vs)

/-- XsecSampler.py 498-537: the figure `few_sampled_xsec`. `cols` are the columns of `sample_df`; at most ten of them are shown. -/
def few (ed : Editor K) (mt : Nat) (g : Groups K) (cols : List (Series K)) : Except PyErr (Few K) := do
  let (es, st) ← fromAce ed mt
  let num := if 10 > cols.length then cols.length else 10                             -- 505-510
  let cs ← curves g es st (cols.take num)
  (fewLog st).map fun l => ⟨es, st, cs, l⟩

end

/-- XsecSampler.py 492, 544, 617, 717: `"{2}{3}{0}_{1}_<kind>.png".format(zaid, mt, output_base, os.path.sep)`. -/
def fileName (base zaid : List Char) (mt : Nat) (kind : List Char) : List Char :=
  base ++ ['/'] ++ zaid ++ ['_'] ++ Dec.natStr mt ++ ['_'] ++ kind ++ c!".png"

/-- The four figures of an MT, in the order they are saved. -/
def kinds : List (List Char) := [c!"sampled_cov", c!"few_sampled_xsec", c!"sampled_corr_compare", c!"base_xsec_with_std"]

/-- An entry of `np.corrcoef(rows)`: the covariance divided by the two standard deviations, clipped to [-1, 1] (numpy's `corrcoef`). A standard
deviation of zero, for which the covariance is zero too, gives NaN. -/
noncomputable def corrcoef {m : Nat} (r s : Fin m → ℝ) : Flt ℝ :=
  match cov r s, cov r r, cov s s with
  | .fin c, .fin a, .fin b => match Flt.div c (Real.sqrt a) with
    | .fin q => match Flt.div q (Real.sqrt b) with
      | .fin x => .fin (max (-1) (min x 1))
      | v => v
    | v => v
  | _, _, _ => .nan

/-- XsecSampler.py 571: `c[np.isnan(c)] = 0`. (An infinite entry cannot occur, and is given as 0.) -/
noncomputable def noNan : Flt ℝ → ℝ
  | .fin x => x
  | _ => 0

/-- XsecSampler.py 570-576: the matrix of the second map. -/
noncomputable def sampledCorr {m : Nat} (corr : List (List ℝ)) (rows : List (Fin m → ℝ)) : Except PyErr (List (List ℝ)) :=
  blank (zeroDiag corr) (rows.map fun r => rows.map fun s => noNan (corrcoef r s))

/-- XsecSampler.py 548-613: the two maps of the figure `sampled_corr_compare`. -/
noncomputable def corrMaps {m : Nat} (g : Groups ℝ) (corr : List (List ℝ)) (rows : List (Fin m → ℝ)) (useMax : Bool) :
    Except PyErr (Mesh ℝ × Mesh ℝ) := do
  let edges ← corrEdges g
  let c2 ← sampledCorr corr rows
  let (vmin, vmax) ← colourRange useMax corr c2
  .ok (⟨edges, flip corr, vmin, vmax⟩, ⟨edges, flip c2, vmin, vmax⟩)

/-- What `plot_sampled_info` draws. -/
structure Figures where
  cov : Steps ℝ × Steps ℝ
  few : Few ℝ
  corr : Mesh ℝ × Mesh ℝ
  rel : Steps ℝ

/-- `plot_sampled_info`, XsecSampler.py 444-623, with `plot_xsec`, 625-718: what is drawn, or the error that ends it (figures before the error have
been saved). -/
noncomputable def plotSampledInfo {m : Nat} (ed : Editor ℝ) (mt : Nat) (g : Groups ℝ) (corr : List (List ℝ)) (cols : List (Series ℝ))
    (rows : List (Fin m → ℝ)) (useMax : Bool) : Except PyErr Figures := do
  let c ← covSteps g rows
  let f ← few ed mt g cols
  let k ← corrMaps g corr rows useMax
  let r ← relSteps g f.es
  .ok ⟨c, f, k, r⟩

end ASAPy.Plots
