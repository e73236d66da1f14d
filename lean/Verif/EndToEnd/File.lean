import Verif.EndToEnd.Format
import Verif.AceData.AsciiProps
import Verif.FromAce.ReadProps

/-! # The text `WriteAce` writes is a table `Library` reads (C85) -/

set_option linter.unusedSimpArgs false

namespace ASAPy.EndToEnd
open ASAPy.WriteAce ASAPy.AceData ASAPy.Str
open ASAPy.Boxer (number)
open ASAPy.Endf (strip)

/-- The lines of the standard layout. -/
def layoutLines : List (List Char) → List (List Char)
  | a :: b :: c :: d :: vs => (field a ++ field b ++ field c ++ field d ++ ['\n']) :: layoutLines vs
  | [] => []
  | vs => [vs.flatMap field ++ ['\n']]

theorem layout_lines : ∀ vs, layout vs = (layoutLines vs).flatten := by
  intro vs
  induction vs using layout.induct with
  | case1 a b c d vs ih => simp [layout, layoutLines, ih]
  | case2 => rfl
  | case3 vs h4 h0 =>
    match vs, h4, h0 with
    | [], _, h0 => exact absurd rfl h0
    | [a], _, _ => simp [layout, layoutLines]
    | [a, b], _, _ => simp [layout, layoutLines]
    | [a, b, c], _, _ => simp [layout, layoutLines]
    | a :: b :: c :: d :: vs, h4, _ => exact absurd rfl (h4 a b c d vs)

theorem layoutLines_length : ∀ vs, (layoutLines vs).length = (vs.length + 3) / 4 := by
  intro vs
  induction vs using layout.induct with
  | case1 a b c d vs ih => simp only [layoutLines, List.length_cons, ih]; omega
  | case2 => rfl
  | case3 vs h4 h0 =>
    match vs, h4, h0 with
    | [], _, h0 => exact absurd rfl h0
    | [a], _, _ => simp [layoutLines]
    | [a, b], _, _ => simp [layoutLines]
    | [a, b, c], _, _ => simp [layoutLines]
    | a :: b :: c :: d :: vs, h4, _ => exact absurd rfl (h4 a b c d vs)

theorem newline_field {v : List Char} (hw : Word v) : '\n' ∉ field v := by
  unfold field rjust
  intro h
  rcases List.mem_append.mp h with h | h
  · have := List.eq_of_mem_replicate h
    exact absurd this (by decide)
  · exact absurd (hw.2 _ h) (by decide)

theorem layoutLines_line : ∀ vs, (∀ v ∈ vs, Word v) → ∀ l ∈ layoutLines vs, ∃ body, l = body ++ ['\n'] ∧ '\n' ∉ body := by
  intro vs
  induction vs using layout.induct with
  | case1 a b c d vs ih =>
    intro hw l hl
    simp only [layoutLines, List.mem_cons] at hl
    rcases hl with rfl | hl
    · refine ⟨_, rfl, ?_⟩
      simp only [List.mem_append, not_or]
      exact ⟨⟨⟨newline_field (hw a (by simp)), newline_field (hw b (by simp))⟩, newline_field (hw c (by simp))⟩, newline_field (hw d (by simp))⟩
    · exact ih (fun v hv => hw v (by simp [hv])) l hl
  | case2 => intro _ l hl; cases hl
  | case3 vs h4 h0 =>
    intro hw l hl
    have hmem : l = vs.flatMap field ++ ['\n'] := by
      match vs, h4, h0 with
      | [], _, h0 => exact absurd rfl h0
      | [a], _, _ => simpa [layoutLines] using hl
      | [a, b], _, _ => simpa [layoutLines] using hl
      | [a, b, c], _, _ => simpa [layoutLines] using hl
      | a :: b :: c :: d :: vs, h4, _ => exact absurd rfl (h4 a b c d vs)
    refine ⟨_, hmem, ?_⟩
    intro hcon
    obtain ⟨v, hv, hv'⟩ := List.mem_flatMap.mp hcon
    exact newline_field (hw v hv) hv'

theorem split_fields : ∀ (vs : List (List Char)), (∀ v ∈ vs, Word v) → (∀ v ∈ vs, v.length ≤ 19) → split (vs.flatMap field ++ ['\n']) = vs := by
  intro vs
  induction vs with
  | nil => intro _ _; rfl
  | cons v vs ih =>
    intro hw hl
    have h := split_field (hw v (by simp)) (hl v (by simp)) [] (vs.flatMap field ++ ['\n'])
    simp only [List.nil_append] at h
    rw [List.flatMap_cons, List.append_assoc, h]
    have hclean : StartsClean (vs.flatMap field ++ ['\n']) := by
      right
      cases vs with
      | nil => exact ⟨'\n', rfl, isSpace_newline⟩
      | cons u us =>
        refine ⟨' ', ?_, isSpace_blank⟩
        have hu := hl u (by simp)
        obtain ⟨k, hk⟩ : ∃ k, 20 - u.length = k + 1 := ⟨19 - u.length, by omega⟩
        simp [field, rjust, hk, List.replicate_succ]
    rw [split_starts_clean hclean, split_word (hw v (by simp)), ih (fun v hv => hw v (by simp [hv])) (fun v hv => hl v (by simp [hv]))]
    rfl

theorem words_layoutLines : ∀ vs, (∀ v ∈ vs, Word v) → (∀ v ∈ vs, v.length ≤ 19) → words (layoutLines vs) = vs := by
  intro vs
  induction vs using layout.induct with
  | case1 a b c d vs ih =>
    intro hw hl
    have h1 := split_fields [a, b, c, d] (fun v hv => hw v (by simp at hv ⊢; tauto)) (fun v hv => hl v (by simp at hv ⊢; tauto))
    have h2 := ih (fun v hv => hw v (by simp [hv])) (fun v hv => hl v (by simp [hv]))
    unfold words at h2 ⊢
    simp only [layoutLines, List.flatMap_cons]
    rw [h2]
    simp only [List.flatMap_cons, List.flatMap_nil, List.append_nil] at h1
    rw [show field a ++ field b ++ field c ++ field d ++ ['\n'] = field a ++ (field b ++ (field c ++ field d)) ++ ['\n'] by simp, h1]
    rfl
  | case2 => intro _ _; rfl
  | case3 vs h4 h0 =>
    intro hw hl
    have hmem : layoutLines vs = [vs.flatMap field ++ ['\n']] := by
      match vs, h4, h0 with
      | [], _, h0 => exact absurd rfl h0
      | [a], _, _ => rfl
      | [a, b], _, _ => rfl
      | [a, b, c], _, _ => rfl
      | a :: b :: c :: d :: vs, h4, _ => exact absurd rfl (h4 a b c d vs)
    rw [hmem]
    unfold words
    simp only [List.flatMap_cons, List.flatMap_nil, List.append_nil]
    exact split_fields vs hw hl

theorem field_length {v : List Char} (h : v.length ≤ 19) : (field v).length = 20 := by
  unfold field rjust
  rw [List.length_append, List.length_replicate]
  omega

/-- All lines but the last have 81 characters, the last at least 21. -/
theorem layoutLines_lengths : ∀ vs, (∀ v ∈ vs, v.length ≤ 19) → vs ≠ [] →
    ∃ ls last, layoutLines vs = ls ++ [last] ∧ (∀ l ∈ ls, l.length = 81) ∧ 2 ≤ last.length := by
  intro vs
  induction vs using layout.induct with
  | case1 a b c d vs ih =>
    intro hl _
    have h81 : (field a ++ field b ++ field c ++ field d ++ ['\n']).length = 81 := by
      simp [field_length (hl a (by simp)), field_length (hl b (by simp)), field_length (hl c (by simp)), field_length (hl d (by simp))]
    by_cases hv : vs = []
    · subst hv
      exact ⟨[], _, rfl, by simp, by rw [h81]; decide⟩
    · obtain ⟨ls, last, e, h1, h2⟩ := ih (fun v hv => hl v (by simp [hv])) hv
      refine ⟨(field a ++ field b ++ field c ++ field d ++ ['\n']) :: ls, last, by simp [layoutLines, e], ?_, h2⟩
      intro l hl'
      rcases List.mem_cons.mp hl' with rfl | hl'
      · exact h81
      · exact h1 l hl'
  | case2 => intro _ h; exact absurd rfl h
  | case3 vs h4 h0 =>
    intro hl _
    match vs, h4, h0 with
    | [], _, h0 => exact absurd rfl h0
    | [a], _, _ => exact ⟨[], _, rfl, by simp, by simp [field_length (hl a (by simp))]⟩
    | [a, b], _, _ => exact ⟨[], _, rfl, by simp, by simp [field_length (hl a (by simp))]; omega⟩
    | [a, b, c], _, _ => exact ⟨[], _, rfl, by simp, by simp [field_length (hl a (by simp))]; omega⟩
    | a :: b :: c :: d :: vs, h4, _ => exact absurd rfl (h4 a b c d vs)

theorem layoutLines_even {vs : List (List Char)} (hl : ∀ v ∈ vs, v.length ≤ 19) (h5 : 4 < vs.length) : Even (layoutLines vs) := by
  have hne : vs ≠ [] := by rintro rfl; simp at h5
  obtain ⟨ls, last, e, h1, h2⟩ := layoutLines_lengths vs hl hne
  have hlen := layoutLines_length vs
  rw [e, List.length_append, List.length_singleton] at hlen
  cases ls with
  | nil => simp at hlen; omega
  | cons l ls =>
    refine ⟨l, ls, last, by rw [e]; rfl, ?_, h2⟩
    intro x hx
    rw [h1 x (List.mem_cons_of_mem _ hx), h1 l (List.mem_cons_self ..)]

/-- **C85.** The file `WriteAce.write_ace` writes is one `Library` reads, and the table in it has the header's data and the written values. -/
theorem C85_written_table {w : Writer} {t : AceData.Table ℚ} (hh : HeaderOk w.header) (hs : AsciiStart t w.header)
    (hv : List.Forall₂ (fun v x => number v = some (x, [])) w.values t.xss) (hl : ∀ v ∈ w.values, v.length ≤ 19) (h5 : 4 < w.values.length) :
    library none (readlines (write w)) = .ok [t] := by
  have hw : ∀ v ∈ w.values, Word v := split_words _
  have hlines : readlines (write w) = (w.header ++ layoutLines w.values) ++ (if w.values.length % 4 = 0 then [['\n']] else []) := by
    rw [C20_written_text, List.append_assoc, readlines_header hh.1, layout_lines, readlines_header (layoutLines_line _ hw), List.append_assoc]
    congr 2
    split_ifs <;> rfl
  have htab : AsciiTable t (w.header ++ layoutLines w.values) := by
    refine ⟨w.header, layoutLines w.values, rfl, hs, ⟨?_, ?_, ?_⟩, layoutLines_even hl h5⟩
    · rw [layoutLines_length, hv.length_eq]
    · intro l hl'
      obtain ⟨body, rfl, _⟩ := layoutLines_line _ hw l hl'
      simp
    · rw [words_layoutLines _ hw hl]
      exact hv
  have := C74_all_partial [t] [w.header ++ layoutLines w.values] (.cons htab .nil) (if w.values.length % 4 = 0 then [['\n']] else []) (by
    split_ifs <;> decide) none (by simp)
  rw [hlines]
  simpa using this

end ASAPy.EndToEnd
