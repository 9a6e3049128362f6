import Verif.Proofs.Codec

/-! Case analysis of `decodeBody`. -/

namespace StayRTR

open Pdu Spec

theorem goUint32_of_slice {l : Bytes} {lo hi : Nat} (h1 : lo + 4 ≤ hi) (h2 : hi ≤ l.length) :
    (goSlice l lo hi >>= fun x => goUint32 x) = .ok (BitVec.ofNat 32 (field l lo 4)) := by
  rw [goSlice_ok (by omega) h2, GoRes.bind_ok', goUint32_ok (by simp; omega), field_eq]
  congr 3
  rw [List.take_take]
  congr 1
  omega

theorem field_index {b : Bytes} {i : Nat} (h : i < b.length) : field b i 1 = (b[i]).toNat := by
  rw [field_eq]
  have : List.take 1 (List.drop i b) = [b[i]] := by
    rw [List.drop_eq_getElem_cons h, List.take_succ_cons, List.take_zero]
  rw [this, beNat_singleton]

theorem goIndex_field {b : Bytes} {i : Nat} (h : i < b.length) : goIndex b i = .ok (BitVec.ofNat 8 (field b i 1)) := by
  rw [goIndex_ok h, field_index h]
  congr 1
  apply BitVec.eq_of_toNat_eq
  have := (b[i]).isLt
  simp only [BitVec.toNat_ofNat]
  omega

theorem field_lt (b : Bytes) (off w : Nat) : field b off w < 256 ^ w := by
  rw [field_eq]
  refine Nat.lt_of_lt_of_le (beNat_lt _) (Nat.pow_le_pow_right (by omega) ?_)
  simp; omega

theorem goSlice_blob {l : Bytes} {lo n : Nat} (h2 : lo + n ≤ l.length) :
    goSlice l lo (lo + n) = .ok (blob l lo n) := by
  rw [goSlice_ok (by omega) h2]
  simp [blob]

theorem goUint32_full {l : Bytes} (h : l.length = 4) : goUint32 l = .ok (BitVec.ofNat 32 (field l 0 4)) := by
  rw [goUint32_ok (by omega), field_eq]; simp

theorem decodeBody_error (v : U8) (s : U16) (b : Bytes) (hmax : b.length < 2 ^ 31) :
    (if b.length < 8 then GoRes.err else do
      let lenPdu ← goUint32 (← goSlice b 0 4)
      if b.length < lenPdu.toNat + 8 then .err else do
        let errPdu ← goSlice b 4 (lenPdu + 4).toNat
        let lenErrText ← goUint32 (← goSlice b (lenPdu + 4).toNat (lenPdu + 8).toNat)
        if b.length < lenPdu.toNat + 8 + lenErrText.toNat then .err else do
          let errMsg ← goSlice b (lenPdu + 8).toNat (lenPdu + 8 + lenErrText).toNat
          return Pdu.errorReport v s errPdu errMsg) =
    if 8 ≤ b.length ∧ 8 + field b 0 4 ≤ b.length ∧ 8 + field b 0 4 + field b (4 + field b 0 4) 4 ≤ b.length then
      .ok (.errorReport v s (blob b 4 (field b 0 4)) (blob b (8 + field b 0 4) (field b (4 + field b 0 4) 4))) else .err := by
  by_cases h : b.length < 8
  · rw [if_pos h, if_neg (by omega)]
  rw [if_neg h]
  have l1 : (blob b 0 4).length = 4 := by simp [blob]; omega
  have f1 : field (blob b 0 4) 0 4 = field b 0 4 := by
    simp only [field_eq, blob, List.drop_zero, List.take_take, Nat.min_self]
  have e1 : goSlice b 0 4 = .ok (blob b 0 4) := goSlice_blob (lo := 0) (n := 4) (by omega)
  rw [e1, GoRes.bind_ok', goUint32_full l1, GoRes.bind_ok', f1]
  have hx := field_lt b 0 4
  generalize hX : field b 0 4 = x at *
  have n1 : (BitVec.ofNat 32 x).toNat = x := by simp only [BitVec.toNat_ofNat]; omega
  rw [n1]
  by_cases h2 : b.length < x + 8
  · rw [if_pos h2, if_neg (by omega)]
  rw [if_neg h2]
  have n3 : (BitVec.ofNat 32 x + 4).toNat = x + 4 := by
    rw [BitVec.toNat_add, n1]; simp; omega
  have n4 : (BitVec.ofNat 32 x + 8).toNat = x + 8 := by
    rw [BitVec.toNat_add, n1]; simp; omega
  have e2 : goSlice b 4 (x + 4) = .ok (blob b 4 x) := by
    rw [Nat.add_comm x 4]; exact goSlice_blob (by omega)
  have e3 : goSlice b (x + 4) (x + 8) = .ok (blob b (x + 4) 4) := goSlice_blob (lo := x + 4) (n := 4) (by omega)
  have l3 : (blob b (x + 4) 4).length = 4 := by simp [blob]; omega
  have f3 : field (blob b (x + 4) 4) 0 4 = field b (x + 4) 4 := by
    simp only [field_eq, blob, List.drop_zero, List.take_take, Nat.min_self]
  rw [n3, n4, e2, e3, GoRes.bind_ok', GoRes.bind_ok', goUint32_full l3, GoRes.bind_ok', f3, Nat.add_comm x 4]
  have hy := field_lt b (4 + x) 4
  generalize hY : field b (4 + x) 4 = y at *
  have n2 : (BitVec.ofNat 32 y).toNat = y := by simp only [BitVec.toNat_ofNat]; omega
  rw [n2]
  by_cases h4 : b.length < x + 8 + y
  · rw [if_pos h4, if_neg (by omega)]
  rw [if_neg h4, if_pos (by omega)]
  have n5 : (BitVec.ofNat 32 x + 8 + BitVec.ofNat 32 y).toNat = x + 8 + y := by
    rw [BitVec.toNat_add, n4, n2]; omega
  have e4 : goSlice b (x + 8) (x + 8 + y) = .ok (blob b (x + 8) y) := goSlice_blob (by omega)
  rw [n5, e4, GoRes.bind_ok', GoRes.pure_eq, Nat.add_comm x 8]

/-- What `decodeBody` does for each type code, without slices. -/
theorem decodeBody_cases (v t : U8) (s : U16) (b : Bytes) (hmax : b.length < 2 ^ 31) :
    (t = 0 ∧ decodeBody v t s b = if b.length = 4 then .ok (.serialNotify v s (BitVec.ofNat 32 (field b 0 4))) else .err) ∨
    (t = 1 ∧ decodeBody v t s b = if b.length = 4 then .ok (.serialQuery v s (BitVec.ofNat 32 (field b 0 4))) else .err) ∨
    (t = 2 ∧ decodeBody v t s b = if b.length = 0 then .ok (.resetQuery v) else .err) ∨
    (t = 3 ∧ decodeBody v t s b = if b.length = 0 then .ok (.cacheResponse v s) else .err) ∨
    (t = 4 ∧ decodeBody v t s b = if b.length = 12 then
      .ok (.ipv4Prefix v (BitVec.ofNat 8 (field b 0 1)) (Prefix.from' (.v4 (BitVec.ofNat 32 (field b 4 4))) (field b 1 1))
        (BitVec.ofNat 8 (field b 2 1)) (BitVec.ofNat 32 (field b 8 4))) else .err) ∨
    (t = 6 ∧ decodeBody v t s b = if b.length = 24 then
      .ok (.ipv6Prefix v (BitVec.ofNat 8 (field b 0 1)) (Prefix.from' (.v6 (BitVec.ofNat 128 (field b 4 16))) (field b 1 1))
        (BitVec.ofNat 8 (field b 2 1)) (BitVec.ofNat 32 (field b 20 4))) else .err) ∨
    (t = 7 ∧ decodeBody v t s b = if b.length = 4 then .ok (.endOfData v s (BitVec.ofNat 32 (field b 0 4)) 0 0 0)
      else if b.length = 16 then .ok (.endOfData v s (BitVec.ofNat 32 (field b 0 4)) (BitVec.ofNat 32 (field b 4 4))
        (BitVec.ofNat 32 (field b 8 4)) (BitVec.ofNat 32 (field b 12 4))) else .err) ∨
    (t = 8 ∧ decodeBody v t s b = if b.length = 0 then .ok (.cacheReset v) else .err) ∨
    (t = 9 ∧ decodeBody v t s b = if 28 ≤ b.length then
      .ok (.routerKey v ((s >>> 8).truncate 8) (blob b 0 20) (BitVec.ofNat 32 (field b 20 4)) (b.drop 24)) else .err) ∨
    (t = 10 ∧ decodeBody v t s b = if 8 ≤ b.length ∧ 8 + field b 0 4 ≤ b.length ∧
        8 + field b 0 4 + field b (4 + field b 0 4) 4 ≤ b.length then
      .ok (.errorReport v s (blob b 4 (field b 0 4)) (blob b (8 + field b 0 4) (field b (4 + field b 0 4) 4))) else .err) ∨
    ((t ≠ 0 ∧ t ≠ 1 ∧ t ≠ 2 ∧ t ≠ 3 ∧ t ≠ 4 ∧ t ≠ 6 ∧ t ≠ 7 ∧ t ≠ 8 ∧ t ≠ 9 ∧ t ≠ 10) ∧ decodeBody v t s b = .err) := by
  by_cases h0 : t = 0
  · subst h0; left; refine ⟨rfl, ?_⟩
    unfold decodeBody
    rw [if_pos (by decide)]
    by_cases h : b.length = 4
    · rw [if_neg (by omega), if_pos h, goUint32_full h, GoRes.bind_ok', GoRes.pure_eq]
    · rw [if_pos h, if_neg h]
  right
  by_cases h1 : t = 1
  · subst h1; left; refine ⟨rfl, ?_⟩
    unfold decodeBody
    rw [if_neg (by decide), if_pos (by decide)]
    by_cases h : b.length = 4
    · rw [if_neg (by omega), if_pos h, goUint32_full h, GoRes.bind_ok', GoRes.pure_eq]
    · rw [if_pos h, if_neg h]
  right
  by_cases h2 : t = 2
  · subst h2; left; refine ⟨rfl, ?_⟩
    unfold decodeBody
    rw [if_neg (by decide), if_neg (by decide), if_pos (by decide)]
    by_cases h : b.length = 0
    · rw [if_neg (by omega), if_pos h]
    · rw [if_pos h, if_neg h]
  right
  by_cases h3 : t = 3
  · subst h3; left; refine ⟨rfl, ?_⟩
    unfold decodeBody
    rw [if_neg (by decide), if_neg (by decide), if_neg (by decide), if_pos (by decide)]
    by_cases h : b.length = 0
    · rw [if_neg (by omega), if_pos h]
    · rw [if_pos h, if_neg h]
  right
  by_cases h4 : t = 4
  · subst h4; left; refine ⟨rfl, ?_⟩
    unfold decodeBody
    rw [if_neg (by decide), if_neg (by decide), if_neg (by decide), if_neg (by decide), if_pos (by decide)]
    by_cases h : b.length = 12
    · rw [if_neg (by omega), if_pos h]
      have e1 : goSlice b 4 8 = .ok (blob b 4 4) := goSlice_blob (n := 4) (by omega)
      have e2 : goSlice b 8 b.length = .ok (blob b 8 4) := by rw [h]; exact goSlice_blob (n := 4) (by omega)
      have l1 : (blob b 4 4).length = 4 := by simp [blob]; omega
      have l2 : (blob b 8 4).length = 4 := by simp [blob]; omega
      have f1 : Addr.fromSlice (blob b 4 4) = some (.v4 (BitVec.ofNat 32 (field b 4 4))) := by
        rw [Addr.fromSlice, if_pos l1, field_eq]; rfl
      have f2 : field (blob b 8 4) 0 4 = field b 8 4 := by
        simp only [field_eq, blob, List.drop_zero, List.take_take, Nat.min_self]
      have hlt := field_lt b 1 1
      rw [goIndex_field (by omega), goIndex_field (by omega), goIndex_field (by omega), e1, e2]
      simp only [GoRes.bind_ok', f1, goUint32_full l2, f2, GoRes.pure_eq, BitVec.toNat_ofNat]
      rw [Nat.mod_eq_of_lt (by omega)]
    · rw [if_pos h, if_neg h]
  right
  by_cases h6 : t = 6
  · subst h6; left; refine ⟨rfl, ?_⟩
    unfold decodeBody
    rw [if_neg (by decide), if_neg (by decide), if_neg (by decide), if_neg (by decide), if_neg (by decide), if_pos (by decide)]
    by_cases h : b.length = 24
    · rw [if_neg (by omega), if_pos h]
      have e1 : goSlice b 4 20 = .ok (blob b 4 16) := goSlice_blob (n := 16) (by omega)
      have e2 : goSlice b 20 b.length = .ok (blob b 20 4) := by rw [h]; exact goSlice_blob (n := 4) (by omega)
      have l1 : (blob b 4 16).length = 16 := by simp [blob]; omega
      have l2 : (blob b 20 4).length = 4 := by simp [blob]; omega
      have f1 : Addr.fromSlice (blob b 4 16) = some (.v6 (BitVec.ofNat 128 (field b 4 16))) := by
        rw [Addr.fromSlice, if_neg (by omega), if_pos l1, field_eq]; rfl
      have f2 : field (blob b 20 4) 0 4 = field b 20 4 := by
        simp only [field_eq, blob, List.drop_zero, List.take_take, Nat.min_self]
      have hlt := field_lt b 1 1
      rw [goIndex_field (by omega), goIndex_field (by omega), goIndex_field (by omega), e1, e2]
      simp only [GoRes.bind_ok', f1, goUint32_full l2, f2, GoRes.pure_eq, BitVec.toNat_ofNat]
      rw [Nat.mod_eq_of_lt (by omega)]
    · rw [if_pos h, if_neg h]
  right
  by_cases h7 : t = 7
  · subst h7; left; refine ⟨rfl, ?_⟩
    unfold decodeBody
    rw [if_neg (by decide), if_neg (by decide), if_neg (by decide), if_neg (by decide), if_neg (by decide), if_neg (by decide), if_pos (by decide)]
    by_cases h : b.length = 4
    · rw [if_neg (by omega), if_pos h, if_pos h, goUint32_full h, GoRes.bind_ok', GoRes.pure_eq]
    · by_cases h' : b.length = 16
      · rw [if_neg (by omega), if_neg h, if_neg h, if_pos h']
        have g : ∀ lo hi, hi = lo + 4 → hi ≤ b.length → goSlice b lo hi = .ok (blob b lo 4) := by
          intro lo hi e hh; subst e; exact goSlice_blob hh
        have l : ∀ lo, lo + 4 ≤ b.length → (blob b lo 4).length = 4 := by
          intro lo hh; simp [blob]; omega
        have f : ∀ lo, field (blob b lo 4) 0 4 = field b lo 4 := by
          intro lo; simp only [field_eq, blob, List.drop_zero, List.take_take, Nat.min_self]
        rw [g 0 4 rfl (by omega), g 4 8 rfl (by omega), g 8 12 rfl (by omega), g 12 16 rfl (by omega)]
        simp only [GoRes.bind_ok', goUint32_full (l 0 (by omega)), goUint32_full (l 4 (by omega)), goUint32_full (l 8 (by omega)),
          goUint32_full (l 12 (by omega)), GoRes.pure_eq, f]
      · rw [if_pos ⟨h, h'⟩, if_neg h, if_neg h']
  right
  by_cases h8 : t = 8
  · subst h8; left; refine ⟨rfl, ?_⟩
    unfold decodeBody
    rw [if_neg (by decide), if_neg (by decide), if_neg (by decide), if_neg (by decide), if_neg (by decide), if_neg (by decide), if_neg (by decide), if_pos (by decide)]
    by_cases h : b.length = 0
    · rw [if_neg (by omega), if_pos h]
    · rw [if_pos h, if_neg h]
  right
  by_cases h9 : t = 9
  · subst h9; left; refine ⟨rfl, ?_⟩
    unfold decodeBody
    rw [if_neg (by decide), if_neg (by decide), if_neg (by decide), if_neg (by decide), if_neg (by decide), if_neg (by decide), if_neg (by decide),
      if_neg (by decide), if_pos (by decide)]
    by_cases h : 28 ≤ b.length
    · rw [if_neg (by omega), if_pos h]
      have e1 : goSlice b 20 24 = .ok (blob b 20 4) := goSlice_blob (n := 4) (by omega)
      have e2 : goSlice b 24 b.length = .ok (b.drop 24) := by
        rw [goSlice_ok (by omega) (by omega), List.take_of_length_le (by simp)]
      have e3 : goSlice b 0 20 = .ok (blob b 0 20) := goSlice_blob (lo := 0) (n := 20) (by omega)
      have l2 : (blob b 20 4).length = 4 := by simp [blob]; omega
      have f2 : field (blob b 20 4) 0 4 = field b 20 4 := by
        simp only [field_eq, blob, List.drop_zero, List.take_take, Nat.min_self]
      rw [e1, e2, e3]
      simp only [GoRes.bind_ok', goUint32_full l2, f2, GoRes.pure_eq]
    · rw [if_pos (by omega), if_neg h]
  right
  by_cases h10 : t = 10
  · subst h10; left; refine ⟨rfl, ?_⟩
    unfold decodeBody
    rw [if_neg (by decide), if_neg (by decide), if_neg (by decide), if_neg (by decide), if_neg (by decide), if_neg (by decide), if_neg (by decide),
      if_neg (by decide), if_neg (by decide), if_pos (by decide)]
    exact decodeBody_error v s b hmax
  right
  refine ⟨⟨h0, h1, h2, h3, h4, h6, h7, h8, h9, h10⟩, ?_⟩
  unfold decodeBody
  rw [if_neg (show ¬ t = pduSerialNotify from h0), if_neg (show ¬ t = pduSerialQuery from h1), if_neg (show ¬ t = pduResetQuery from h2),
    if_neg (show ¬ t = pduCacheResponse from h3), if_neg (show ¬ t = pduIPv4Prefix from h4), if_neg (show ¬ t = pduIPv6Prefix from h6),
    if_neg (show ¬ t = pduEndOfData from h7), if_neg (show ¬ t = pduCacheReset from h8), if_neg (show ¬ t = pduRouterKey from h9),
    if_neg (show ¬ t = pduErrorReport from h10)]

end StayRTR
