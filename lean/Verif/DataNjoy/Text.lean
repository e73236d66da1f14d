import Verif.DataNjoy.Spec
import Verif.Deck.Whole

/-!
# The input of `make_ace`, read back
-/

namespace ASAPy.DNjoy
open Files
open Deck (W Opts Run num Plain Quotable suffix Reads Part)

variable {o : Opts}

theorem acerLoop_congr (o : Opts) (k : Nat) (l : List Njoy.Temp) : ∀ (i : Nat) (s : W),
    Deck.acerLoop { o with errorr := false, heatr := false } k i l s = Deck.acerLoop o k i l s := by
  induction l with
  | nil => intro i s; rfl
  | cons t l ih => intro i s; simp only [Deck.acerLoop]; congr 1; funext a; exact ih _ _

theorem CanWrite.writable (hw : CanWrite o) : Deck.Opts.Writable { o with errorr := false, heatr := false } where
  temps := hw.temps
  temp := hw.temp
  error := hw.error
  library := hw.library
  zsymam := hw.zsymam
  groups := by simp
  flux := by simp
  broadr := by simp

theorem makeText_ok (hw : CanWrite o) : ∃ t, makeText o = .ok t ∧ Reads t (askedAce o) := by
  have ht := Deck.temps_part hw.writable
  have hs : o.strs.length = o.temps.length := by simp [Deck.Opts.strs]
  have pn := Deck.plain_natStr
  have hrec := Deck.part_reconr (pn 20) (pn 21) hw.library hw.zsymam (pn o.mat) hw.error
  have hbro := Deck.part_broadr (pn 20) (pn 21) (pn 22) (pn o.mat) hw.error ht.1 ht.2
  have hhe := Deck.part_heatr (pn 20) (pn (afterBroadr o)) (pn (afterBroadr o + 1)) (pn o.mat)
  have hpu := Deck.part_purr (pn 20) (pn (afterHeatr o)) (pn (afterHeatr o + 1)) (pn o.mat) ht.1 ht.2
  rw [Deck.strs_length] at hbro hpu
  obtain ⟨x1, e1, p1⟩ : ∃ x, Deck.format (env o) Deck.tReconr = .ok x ∧ Part x [.reconr [num 20, num 21] (num o.mat) o.error] :=
    ⟨_, Deck.format_xReconr rfl rfl rfl rfl rfl rfl, hrec⟩
  obtain ⟨x2, e2, p2⟩ : ∃ x, Deck.format (env o) (if o.broadr then Deck.tBroadr else []) = .ok x ∧
      Part x (if o.broadr then [.broadr [num 20, num 21, num 22] (num o.mat) o.error o.strs] else []) := by
    cases hb : o.broadr with
    | false => exact ⟨[], rfl, Part.nil⟩
    | true => exact ⟨_, Deck.format_xBroadr rfl rfl rfl rfl rfl rfl rfl, hbro⟩
  obtain ⟨x3, e3, p3⟩ : ∃ x, Deck.format (env o) (if o.heatr then Deck.tHeatr else []) = .ok x ∧
      Part x (if o.heatr then [.heatr [num 20, num (afterBroadr o), num (afterBroadr o + 1)] (num o.mat) [c!"302", c!"318", c!"402"]] else []) := by
    cases hb : o.heatr with
    | false => exact ⟨[], rfl, Part.nil⟩
    | true => exact ⟨_, Deck.format_xHeatr rfl rfl rfl rfl, hhe⟩
  obtain ⟨x4, e4, p4⟩ : ∃ x, Deck.format (env o) (if o.purr then Deck.tPurr else []) = .ok x ∧
      Part x (if o.purr then [.purr [num 20, num (afterHeatr o), num (afterHeatr o + 1)] (num o.mat) o.strs] else []) := by
    cases hb : o.purr with
    | false => exact ⟨[], rfl, Part.nil⟩
    | true => exact ⟨_, Deck.format_xPurr rfl rfl rfl rfl rfl rfl, hpu⟩
  have hf := Deck.format_ok_append (Deck.format_ok_append (Deck.format_ok_append e1 e2) e3) e4
  obtain ⟨w, e5, p5⟩ : ∃ w, Deck.acerPart o (afterPurr o) (x1 ++ x2 ++ x3 ++ x4) = .ok (x1 ++ x2 ++ x3 ++ x4 ++ w) ∧
      Part w (if o.acer then o.temps.zipIdx.map fun ti => .acer [num 20, num (afterPurr o), c!"0", num (afterPurr o + 1 + 2 * ti.2),
        num (afterPurr o + 2 + 2 * ti.2)] (suffix ti.2) (num o.mat) ti.1.str else []) := by
    unfold Deck.acerPart
    cases hh : o.acer with
    | false => exact ⟨[], by simp, Part.nil⟩
    | true =>
      obtain ⟨w, h1, h2⟩ := Deck.acer_ok hw.writable (afterPurr o) o.temps (fun t h => h) 0 (x1 ++ x2 ++ x3 ++ x4)
      rw [acerLoop_congr] at h1
      exact ⟨w, h1, h2⟩
  refine ⟨x1 ++ x2 ++ x3 ++ x4 ++ w ++ c!"stop\n", ?_, ?_⟩
  · unfold makeText
    simp only [hf, e5, bind, Except.bind]
    rfl
  · have := ((((p1.append p2).append p3).append p4).append p5) _ _ Deck.reads_stop
    rw [List.append_nil] at this
    simp only [afterPurr, afterHeatr, afterBroadr] at this
    exact this

end ASAPy.DNjoy
