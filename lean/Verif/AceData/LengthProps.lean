import Verif.AceData.AsciiProps

/-! # The length of the tables read (C83) -/

namespace ASAPy.AceData

theorem readXss_length {n : Int} {data : Endf.Line} {v : List ℚ} (h : readXss n data = .ok v) : (v.length : Int) = n + 1 := by
  unfold readXss at h
  simp only at h
  split_ifs at h with h1 h2
  · cases h; exact h2
  · cases h; push Not at h1; exact h1

theorem readAscii_length (names : Option (List Endf.Line)) : ∀ (k : Nat) (seen lines f : List Endf.Line) (ts : List (Table ℚ)),
    readAscii names k seen lines f = .ok ts → ∀ t ∈ ts, ∃ n rest, t.nxs = n :: rest ∧ (0 ≤ n → (t.xss.length : Int) = n) := by
  intro k
  induction k with
  | zero => intro seen lines f ts h t ht; simp only [readAscii, Except.ok.injEq] at h; rw [← h] at ht; cases ht
  | succ k ih =>
    intro seen lines f ts h t ht
    unfold readAscii at h
    split at h
    · cases h; cases ht
    simp only [bind, Except.bind] at h
    split at h
    · cases h
    rename_i v hv
    obtain ⟨name, awr, temp, lines', f'⟩ := v
    simp only at h
    split at h
    · cases h
    rename_i iz hiz
    split at h
    · cases h
    rename_i aw haw
    split at h
    · cases h
    rename_i n rest hnxs
    split at h
    · cases h; cases ht
    split at h
    · split at h
      · cases h
      exact ih _ _ _ _ h t ht
    split at h
    · split at h
      · cases h
      split at h
      · cases h
      rename_i xss hx
      split at h
      · cases h
      rename_i ts' hts
      cases h
      rcases List.mem_cons.mp ht with rfl | ht
      · refine ⟨n, rest, hnxs, ?_⟩
        intro h0
        have := readXss_length hx
        simp only [List.length_tail]
        omega
      · exact ih _ _ _ _ hts t ht
    · split at h
      · cases h
      rename_i xss hx
      split at h
      · cases h
      rename_i ts' hts
      cases h
      rcases List.mem_cons.mp ht with rfl | ht
      · refine ⟨n, rest, hnxs, ?_⟩
        intro h0
        have := readXss_length hx
        simp only [List.length_tail]
        omega
      · exact ih _ _ _ _ hts t ht

/-- **C83.** A table read from an ASCII file has as many numbers as its header says; a file that ends too early is not read as a shorter table. -/
theorem C83_length (names : Option (List Endf.Line)) (file : List Endf.Line) (ts : List (Table ℚ)) (h : library names file = .ok ts) :
    ∀ t ∈ ts, ∃ n rest, t.nxs = n :: rest ∧ (0 ≤ n → (t.xss.length : Int) = n) := readAscii_length _ _ _ _ _ _ h

-- A file of 14 lines with six numbers is read; without its last line it is not.
example : (library none (smallStart ++ smallXss)).map (·.map fun t => (t.xss.length, t.nxs.head?)) = .ok [(6, some 6)] := by decide +kernel
example : library none (smallStart ++ smallXss.take 1) = .error .assertionError := by decide +kernel

end ASAPy.AceData
