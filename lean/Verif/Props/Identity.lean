import Verif.Proofs.Text
import Verif.Spec.Records

/-! C08: hash keys identify records. -/

namespace StayRTR

/-- **C08.** For records with valid prefixes the hash keys agree exactly when the records do; flags do not matter. -/
theorem C08_hash_key_identifies {x y : SD} (hx : x.Valid) (hy : y.Valid) : x.hashKey = y.hashKey ↔ x.record = y.record := by
  have dash : ¬ IsDigit '-' := by decide
  have nd : ∀ n, '-' ∉ decStr n := fun n => not_mem_of_digits (decStr_digits n) dash
  have nh : ∀ b, '-' ∉ hexBytes b := fun b => not_mem_of_digits (hexBytes_digits b) dash
  have np : ∀ p : Prefix, p.Valid → '-' ∉ p.toStr := fun p hp hm => by
    rcases Prefix.toStr_chars hp hm with h | h | h | h
    · exact absurd h (by decide)
    · exact absurd h (by decide)
    · exact absurd h (by decide)
    · exact dash h
  have pv : ∀ v : VRP, (SD.vrp v).Valid → v.pfx.Valid := fun v h => ⟨h.1, by simpa [Prefix.isValid] using h.2⟩
  constructor
  · intro h
    cases x with
    | vrp a =>
      cases y with
      | vrp b =>
        simp only [SD.hashKey] at h
        obtain ⟨h1, h2⟩ := append_sep_inj (np _ (pv a hx)) (np _ (pv b hy)) h
        obtain ⟨h2, h3⟩ := append_sep_inj (nd _) (nd _) h2
        simp only [SD.record, Rec.vrp.injEq]
        exact ⟨Prefix.toStr_inj (pv a hx) (pv b hy) h1, BitVec.eq_of_toNat_eq (decStr_inj h2), BitVec.eq_of_toNat_eq (decStr_inj h3)⟩
      | brk b =>
        simp only [SD.hashKey] at h
        obtain ⟨h1, _⟩ := append_sep_inj (np _ (pv a hx)) (nd _) h
        have := Prefix.toStr_slash (pv a hx)
        rw [h1] at this
        exact absurd (decStr_digits _ _ this) (by decide)
    | brk a =>
      cases y with
      | vrp b =>
        simp only [SD.hashKey] at h
        obtain ⟨h1, _⟩ := append_sep_inj (nd _) (np _ (pv b hy)) h
        have := Prefix.toStr_slash (pv b hy)
        rw [← h1] at this
        exact absurd (decStr_digits _ _ this) (by decide)
      | brk b =>
        simp only [SD.hashKey] at h
        obtain ⟨h1, h2⟩ := append_sep_inj (nd _) (nd _) h
        obtain ⟨h2, h3⟩ := append_sep_inj (nh _) (nh _) h2
        simp only [SD.record, Rec.brk.injEq]
        exact ⟨BitVec.eq_of_toNat_eq (decStr_inj h1), hexBytes_inj h2, hexBytes_inj h3⟩
  · intro h
    cases x <;> cases y <;> simp only [SD.record, Rec.vrp.injEq, Rec.brk.injEq, reduceCtorEq] at h <;>
      simp [SD.hashKey, h]

/-- **C08.** `Equals` is the same relation. -/
theorem C08_equals_iff (x y : SD) : x.equals y = true ↔ x.record = y.record := by
  cases x <;> cases y <;> simp [SD.equals, SD.record, and_comm, and_left_comm, and_assoc]

example : (SD.vrp ⟨⟨.v4 0x0a000000#32, 9⟩, 65000#32, 24#8, 1#8⟩).Valid ∧
    (SD.vrp ⟨⟨.v6 0x20010db8000000000000000000000000#128, 33⟩, 65000#32, 48#8, 1#8⟩).hashKey = "2001:db8::/32-48-65000".toList := by decide

example : (SD.vrp ⟨⟨.v4 0x0a000000#32, 9⟩, 65000#32, 24#8, 1#8⟩).hashKey = "10.0.0.0/8-24-65000".toList ∧
    (SD.vrp ⟨⟨.v6 0xffff0a000000#128, 105⟩, 65000#32, 128#8, 0#8⟩).hashKey = "::ffff:10.0.0.0/104-128-65000".toList ∧
    (SD.brk ⟨65000#32, [1#8, 0xab#8], [3#8], 1#8⟩).hashKey = "65000-03-01ab".toList := by decide

/-- Without the validity hypothesis the claim fails: all invalid prefixes print alike. -/
example : (SD.vrp ⟨⟨.v4 1#32, 0⟩, 1#32, 24#8, 1#8⟩).hashKey = (SD.vrp ⟨⟨.v4 2#32, 0⟩, 1#32, 24#8, 1#8⟩).hashKey ∧
    (SD.vrp ⟨⟨.v4 1#32, 0⟩, 1#32, 24#8, 1#8⟩).record ≠ (SD.vrp ⟨⟨.v4 2#32, 0⟩, 1#32, 24#8, 1#8⟩).record := by decide

end StayRTR
