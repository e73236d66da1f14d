import Verif.DataNjoy.Model
import Verif.Files.Props

/-!
# Specification for C209-C213

The modules and tapes asked for, read from the input by the grammar of NJOY's cards (`Deck.Reads`, Verif/Deck/Spec.lean); what the files hold afterwards; the identifiers in the
first line of an ACE table.
-/

namespace ASAPy.DNjoy
open Files
open Deck (W Opts Run num Plain Quotable suffix)

/-- Values that can be on the cards of `make_ace`. -/
structure CanWrite (o : Opts) : Prop where
  temps : o.temps ≠ []
  temp : ∀ t ∈ o.temps, Plain t.str
  error : Plain o.error
  library : Quotable o.library
  zsymam : Quotable o.zsymam

/-- The modules of `make_ace`: each reads the tape of the one before it, and the ACER run of the `i`-th temperature writes tapes of its own. The evaluation is on tape 20, the
PENDF file on tape 21. -/
def askedAce (o : Opts) : List Run :=
  let k1 := if o.broadr then 22 else 21
  let k2 := if o.heatr then k1 + 1 else k1
  let k3 := if o.purr then k2 + 1 else k2
  [.reconr [num 20, num 21] (num o.mat) o.error]
  ++ (if o.broadr then [.broadr [num 20, num 21, num 22] (num o.mat) o.error o.strs] else [])
  ++ (if o.heatr then [.heatr [num 20, num k1, num (k1 + 1)] (num o.mat) [c!"302", c!"318", c!"402"]] else [])
  ++ (if o.purr then [.purr [num 20, num k2, num (k2 + 1)] (num o.mat) o.strs] else [])
  ++ (if o.acer then o.temps.zipIdx.map fun ti =>
      .acer [num 20, num k3, c!"0", num (k3 + 1 + 2 * ti.2), num (k3 + 2 + 2 * ti.2)] (suffix ti.2) (num o.mat) ti.1.str else [])

/-- The names of the files of the single temperatures: `<ace>_293.6` and `<xsdir>_293.6` for 293.6 K. -/
def singles (c : Call) : List Path := c.opts.temps.flatMap fun t => [c.ace ++ '_' :: t.fmt1, c.xsdir ++ '_' :: t.fmt1]

/-- The names of a call: they are different from each other and outside the temporary directory, which is new. -/
structure Names (tmp : Path) (c : Call) (fs : FS) : Prop where
  fresh : ∀ p, Inside tmp p → fs p = none
  distinct : (c.input.toList ++ c.pendf.toList ++ c.ace :: c.xsdir :: singles c).Nodup
  outside : ∀ p ∈ c.filename :: (c.input.toList ++ c.pendf.toList ++ c.ace :: c.xsdir :: singles c), ¬ Inside tmp p

/-- The identifier of an ACE table: the first line begins with ZA, right-justified in six columns, and something that is no digit. -/
def Named (za : Nat) (text : Text) : Prop :=
  ∃ c rest, Dec.isDigit c = false ∧ (Dec.natStr za).length ≤ 6 ∧ text = List.replicate (6 - (Dec.natStr za).length) ' ' ++ Dec.natStr za ++ c :: rest

/-- A table before and after it is put into the ACE file: for a ground state it is the same; for a metastable state only the fourth column may change, and the identifier 1000 Z + A
becomes 1000 Z + A + 400. -/
structure Relabelled (isomer : Int) (t t' : Text) : Prop where
  ground : isomer ≤ 0 → t' = t
  left : t'.take 3 = t.take 3
  right : t'.drop 4 = t.drop 4
  named : 0 < isomer → ∀ z a, 1 ≤ z → z < 1000 → a < 300 → Named (1000 * z + a) t → Named (1000 * z + a + 400) t'

end ASAPy.DNjoy
