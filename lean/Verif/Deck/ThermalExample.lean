import Verif.Deck.ThermalProps
import Verif.Deck.Props

/-!
# A scatterer with two temperatures
-/

namespace ASAPy.Deck

set_option maxRecDepth 100000

open ASAPy.Endf

def e1 : Line := c!" 1.040000+2 8.934780+1          0          1          0          0  58 7  4    1\n"
def e2 : Line := c!" 0.000000+0 0.000000+0          0          0          6          0  58 7  4    2\n"
def e3 : Line := c!" 6.000000+0 1.976000+0 8.934780+1 5.000000+0 0.000000+0 1.000000+0  58 7  4    3\n"
def e4 : Line := c!" 0.000000+0 0.000000+0          0          0          1          2  58 7  4    4\n"
def e5 : Line := c!"          2          4                                              58 7  4    5\n"
def e6 : Line := c!" 2.960000+2 0.000000+0          1          0          1          1  58 7  4    6\n"
def e7 : Line := c!"          1          4                                              58 7  4    7\n"
def e8 : Line := c!" 1.000000-2 2.000000-3                                              58 7  4    8\n"
def e9 : Line := c!" 4.000000+2 0.000000+0          4          0          1          0  58 7  4    9\n"
def e10 : Line := c!" 3.000000-3                                                         58 7  4   10\n"
def e11 : Line := c!" 1.040000+2 8.934780+1          2          0          0          0  58 7  2    1\n"

theorem f {α : Type} {r : List Char → Except PyErr α} {t : List Char} {v : α} (h1 : t.length = 11) (h2 : r t = .ok v) : Field r t v := ⟨h1, h2⟩

theorem contLine_of {c : Cont} {l : Line} (h : l = l.take 11 ++ (l.drop 11).take 11 ++ (l.drop 22).take 11 ++ (l.drop 33).take 11 ++ (l.drop 44).take 11 ++ (l.drop 55).take 11 ++ l.drop 66)
    (h1 : Field floatEndf (l.take 11) c.c1) (h2 : Field floatEndf ((l.drop 11).take 11) c.c2) (h3 : Field pyInt ((l.drop 22).take 11) c.l1) (h4 : Field pyInt ((l.drop 33).take 11) c.l2)
    (h5 : Field pyInt ((l.drop 44).take 11) c.n1) (h6 : Field pyInt ((l.drop 55).take 11) c.n2) : ContLine c l := ⟨_, _, _, _, _, _, _, h, h1, h2, h3, h4, h5, h6⟩

theorem ex_sec74 : Sec74 [6, 1976 / 1000, 8934780 / 100000, 5, 0, 1] 296 [400] [e1, e2, e3, e4, e5, e6, e7, e8, e9, e10] := by
  refine ⟨⟨104, 8934780 / 100000, 0, 1, 0, 0⟩, e1, ⟨0, 0, 0, 0, 6, 0⟩, e2, [e3], ⟨0, 0, 0, 0, 1, 2⟩, e4, [(2, 4)], [e5], ⟨296, 0, 1, 0, 1, 1⟩, e6, [(1, 4)], [e7], [(1 / 100, 2 / 1000)], [e8], [e9, e10], [], rfl,
    ?_, ⟨?_, rfl, ?_⟩, ⟨?_, rfl, ?_⟩, ⟨?_, rfl, rfl, rfl, rfl, ?_, ?_⟩, ?_⟩
  · exact ⟨104, e1.take 11, (e1.drop 11).take 11, (e1.drop 22).take 11, (e1.drop 33).take 11, (e1.drop 44).take 11, (e1.drop 55).take 11, e1.drop 66, by decide,
      f (by decide) (by decide +kernel), Or.inl ⟨by norm_num, by norm_num⟩, f (by decide) (by decide +kernel), f (by decide) (by decide +kernel),
      f (by decide) (by decide +kernel), f (by decide) (by decide +kernel), f (by decide) (by decide +kernel)⟩
  · exact contLine_of (by decide) (f (by decide) (by decide +kernel)) (f (by decide) (by decide +kernel)) (f (by decide) (by decide +kernel)) (f (by decide) (by decide +kernel))
      (f (by decide) (by decide +kernel)) (f (by decide) (by decide +kernel))
  · refine .last (by simp) (by simp) ?_
    have e : e3 = c!" 6.000000+0" ++ (c!" 1.976000+0" ++ (c!" 8.934780+1" ++ (c!" 5.000000+0" ++ (c!" 0.000000+0" ++ (c!" 1.000000+0" ++ c!"  58 7  4    3\n"))))) := by decide
    rw [e]
    exact .cons (f (by decide) (by decide +kernel)) (.cons (f (by decide) (by decide +kernel)) (.cons (f (by decide) (by decide +kernel)) (.cons (f (by decide) (by decide +kernel))
      (.cons (f (by decide) (by decide +kernel)) (.cons (f (by decide) (by decide +kernel)) (.nil _))))))
  · exact contLine_of (by decide) (f (by decide) (by decide +kernel)) (f (by decide) (by decide +kernel)) (f (by decide) (by decide +kernel)) (f (by decide) (by decide +kernel))
      (f (by decide) (by decide +kernel)) (f (by decide) (by decide +kernel))
  · refine .last (by simp) (by simp) ?_
    have e : e5 = c!"          2" ++ c!"          4" ++ c!"                                              58 7  4    5\n" := by decide
    rw [e]
    exact .cons (f (by decide) (by decide +kernel)) (f (by decide) (by decide +kernel)) (.nil _)
  · exact contLine_of (by decide) (f (by decide) (by decide +kernel)) (f (by decide) (by decide +kernel)) (f (by decide) (by decide +kernel)) (f (by decide) (by decide +kernel))
      (f (by decide) (by decide +kernel)) (f (by decide) (by decide +kernel))
  · refine .last (by simp) (by simp) ?_
    have e : e7 = c!"          1" ++ c!"          4" ++ c!"                                              58 7  4    7\n" := by decide
    rw [e]
    exact .cons (f (by decide) (by decide +kernel)) (f (by decide) (by decide +kernel)) (.nil _)
  · refine .last (by simp) (by simp) ?_
    have e : e8 = c!" 1.000000-2" ++ c!" 2.000000-3" ++ c!"                                              58 7  4    8\n" := by decide
    rw [e]
    exact .cons (f (by decide) (by decide +kernel)) (f (by decide) (by decide +kernel)) (.nil _)
  · have hv : Lines (Starts floatEndf) 6 [3 / 1000] [e10] := by
      refine .last (by simp) (by simp) ?_
      have e : e10 = c!" 3.000000-3" ++ c!"                                                         58 7  4   10\n" := by decide
      rw [e]
      exact .cons (f (by decide) (by decide +kernel)) (.nil _)
    exact .cons (c := ⟨400, 0, 4, 0, 1, 0⟩) (cl := e9) (ls := []) (contLine_of (by decide) (f (by decide) (by decide +kernel)) (f (by decide) (by decide +kernel)) (f (by decide) (by decide +kernel))
      (f (by decide) (by decide +kernel)) (f (by decide) (by decide +kernel)) (f (by decide) (by decide +kernel))) rfl hv .nil

/-- Texts of the values of the example; only whole numbers occur. -/
def exShow : Show := ⟨fun q => Dec.natStr q.floor.toNat ++ c!".0", fun q => Dec.natStr q.floor.toNat ++ c!".0"⟩

/-- Zr in ZrH with incoherent elastic scattering (`m` is the material of the scatterer). -/
def exThermal (m : Nat) : Thermal := {
  mat := 4000
  zsymam := c!" 40-Zr-  0 "
  matThermal := m
  zsymamThermal := c!" Zr(ZrH)   "
  library := c!"ENDFB-7.1"
  sec72 := some [e11]
  sec74 := [e1, e2, e3, e4, e5, e6, e7, e8, e9, e10] }

def exScatterer (d : W × List Nat × Nat) : Scatterer := {
  name := d.1
  zaids := d.2.1
  nmix := d.2.2
  lthr := some 2
  emax := 5
  natom := 1
  temps := [⟨c!"296.0", c!"296.0"⟩, ⟨c!"400.0", c!"400.0"⟩] }

theorem ex_says {m : Nat} {d : W × List Nat × Nat} (h : (m, d) ∈ thermalData) : (exThermal m).Says exShow (exScatterer d) where
  data := h
  elastic := ⟨⟨104, 8934780 / 100000, 2, 0, 0, 0⟩, e11, [], rfl,
    ⟨104, e11.take 11, (e11.drop 11).take 11, (e11.drop 22).take 11, (e11.drop 33).take 11, (e11.drop 44).take 11, (e11.drop 55).take 11, e11.drop 66, by decide,
      f (by decide) (by decide +kernel), Or.inl ⟨by norm_num, by norm_num⟩, f (by decide) (by decide +kernel), f (by decide) (by decide +kernel),
      f (by decide) (by decide +kernel), f (by decide) (by decide +kernel), f (by decide) (by decide +kernel)⟩, rfl⟩
  constants := ⟨_, _, _, 1, ex_sec74, rfl, rfl, Or.inl ⟨by norm_num, by simp [exScatterer]⟩, .inr ⟨rfl, (by decide +kernel :
    [(⟨c!"296.0", c!"296.0"⟩ : Njoy.Temp), ⟨c!"400.0", c!"400.0"⟩] = List.map (fun q => ⟨exShow.str q, exShow.fmt1 q⟩) [296, 400])⟩⟩
  temps := by simp [exScatterer]
  temp := by
    intro t ht
    simp only [exScatterer, List.mem_cons, List.not_mem_nil, or_false] at ht
    rcases ht with rfl | rfl <;> exact plain_of (by decide) (by decide)
  error := (plain_of (by decide) (by decide) : Plain c!"0.001")
  emax := (plain_of (by decide +kernel) (by decide +kernel) : Plain (exShow.str 5))
  library := (by decide : '\'' ∉ c!"ENDFB-7.1")
  zsymam := (by decide : '\'' ∉ c!" 40-Zr-  0 ")
  zsymamThermal := (by decide : '\'' ∉ c!" Zr(ZrH)   ")

/-- The hypotheses of `C118_zaids_partial` hold for H in ZrH. -/
example : ∃ t, thermalDeck exShow (exThermal 7) = .ok t ∧ ∀ rs, Reads t rs ↔ rs = thermalAsked exShow (exThermal 7) (exScatterer (c!"hzrh", [1001], 1)) [1001] :=
  C118_zaids_partial (ex_says (by decide +kernel)) (by decide)

/-- The hypotheses of `C118_zaids_refuted` hold for Zr in ZrH. -/
example : ∃ t, thermalDeck exShow (exThermal 58) = .ok t ∧
    ¬ Reads t (thermalAsked exShow (exThermal 58) (exScatterer (c!"zrzrh", [40000, 40090, 40091, 40092, 40094, 40096], 1)) [40000, 40090, 40091, 40092, 40094, 40096]) :=
  C118_zaids_refuted (ex_says (by decide +kernel)) (by decide)

/-- A material that is not in the table. -/
example : thermalDeck exShow (exThermal 4) = .error .keyError := C118_unknown (by decide +kernel)

end ASAPy.Deck
