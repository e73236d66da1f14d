import Verif.Boxer2Mat.Model

/-! # Specification: the compressed matrices of the BOXER format -/

namespace ASAPy.Boxr

variable {α : Type}

/-- The elements that are stored, row by row: all, or those on and above the diagonal of a symmetric matrix. -/
def cells (nrow ncol : Nat) (sym : Bool) : List (Nat × Nat) :=
  (List.range' 1 nrow).flatMap fun i => (List.range' (if sym then i else 1) (if sym then ncol + 1 - i else ncol)).map fun j => (i, j)

/-- What a page says of each element in turn: `-n` stands for `n` elements with the next value, `n` for `n` elements equal to those above them
(`none`). No result if a control number is zero or the values do not suffice. -/
def expand : List Int → List α → Option (List (Option α))
  | [], _ => some []
  | k :: ks, vs =>
    if k < 0 then
      match vs with
      | [] => none
      | v :: vs => (expand ks vs).map fun ts => List.replicate (-k).toNat (some v) ++ ts
    else if k = 0 then none
    else (expand ks vs).map fun ts => List.replicate k.toNat none ++ ts

/-- The elements of the pages are those of the matrix, in order and without one left over. An element equal to the one above is zero in the first row
of a page. -/
def Decoded [Zero α] (m : Nat → Nat → α) : List (Nat × Nat) → List (List (Option α)) → Prop
  | cs, [] => cs = []
  | cs, t :: ts => t.length ≤ cs.length ∧
    (∀ p ∈ List.zip cs t, m p.1.1 p.1.2 = p.2.getD (if (cs.head?.map Prod.fst).getD 0 < p.1.1 then m (p.1.1 - 1) p.1.2 else 0)) ∧
    Decoded m (cs.drop t.length) ts

/-- The pages of one matrix: of the same size and kind, and all but the last announce another. -/
def Section : List (Page α) → Prop
  | [] => False
  | [p] => p.head.nrowm = 0 ∧ 1 ≤ p.head.nrow
  | p :: q :: ps => p.head.nrowm ≠ 0 ∧ q.head.nrow = p.head.nrow ∧ q.head.ncol = p.head.ncol ∧ q.head.itype = p.head.itype ∧ Section (q :: ps)

/-- What the pages say of their elements. -/
def Contents (ps : List (Page α)) (tss : List (List (Option α))) : Prop := List.Forall₂ (fun p ts => expand p.icon p.xval = some ts) ps tss

/-- Each page but the last ends at the end of a row. -/
def WholeRows (cs : List (Nat × Nat)) (tss : List (List (Option α))) : Prop :=
  ∀ k, 1 ≤ k → k < tss.length → ∃ r, 1 ≤ r ∧ (tss.take k).flatten.length = (cs.filter fun p => decide (p.1 ≤ r)).length

/-- The formats of a page: values in 7 to 14 columns, control numbers in 1 to 6. -/
def Head.Formats (h : Head) : Prop := (7 ≤ h.nvf ∧ h.nvf ≤ 14) ∧ (1 ≤ h.ncf ∧ h.ncf ≤ 6)

/-- A page that can be read. -/
def Legal (p : Page α) : Prop := p.head.itype ≠ 9 ∧ p.xval.length ≤ 1880 ∧ p.icon.length ≤ 1900 ∧ p.head.Formats

/-- The page has what is asked for: bounds (type 0) are the same for all reactions, cross sections and deviations (1 and 2) belong to a reaction, a
matrix to two of them. -/
def Asked (r : Req) (h : Head) : Prop :=
  h.itype = r.itype ∧ (r.itype ≠ 0 → h.mat = r.mat ∧ h.mt = r.mt) ∧ (r.itype ∉ [0, 1, 2] → h.mat1 = r.mat1 ∧ h.mt1 = r.mt1)

/-- The file goes on with other pages and then with the pages of a matrix of the given size that is asked for; these describe it completely. -/
structure Answer (r : Req) (nrow ncol : Nat) (others : List (Page α)) (p : Page α) (ps : List (Page α)) (tss : List (List (Option α))) : Prop where
  others_legal : ∀ q ∈ others, Legal q ∧ ¬ Asked r q.head
  legal : ∀ q ∈ p :: ps, Legal q
  asked : Asked r p.head
  pages : Section (p :: ps)
  rows : p.head.nrow = nrow
  columns : p.head.columns = ncol
  small : nrow ≤ 800 ∧ ncol ≤ 800
  contents : Contents (p :: ps) tss
  complete : tss.flatten.length = (cells nrow ncol p.head.sym).length
  whole : WholeRows (cells nrow ncol p.head.sym) tss
  title : ∃ t, p.head.title = ' ' :: t ∧ '*' ∉ t

end ASAPy.Boxr
