import Verif.Model.Pdu

/-! Helper lemmas on `GoRes`, big-endian codecs and slices. -/

namespace StayRTR

namespace GoRes

@[simp] theorem bind_ok' {α β : Type} (a : α) (f : α → GoRes β) : (GoRes.ok a >>= f) = f a := by simp only [Bind.bind, GoRes.bind]
@[simp] theorem bind_err' {α β : Type} (f : α → GoRes β) : ((GoRes.err : GoRes α) >>= f) = .err := by simp only [Bind.bind, GoRes.bind]
@[simp] theorem bind_panic' {α β : Type} (f : α → GoRes β) : ((GoRes.panic : GoRes α) >>= f) = .panic := by simp only [Bind.bind, GoRes.bind]
@[simp] theorem pure_eq {α : Type} (a : α) : (pure a : GoRes α) = .ok a := rfl

theorem bind_eq_ok {α β : Type} {x : GoRes α} {f : α → GoRes β} {b : β} :
    (x >>= f) = .ok b ↔ ∃ a, x = .ok a ∧ f a = .ok b := by
  cases x <;> simp

theorem bind_ne_panic {α β : Type} {x : GoRes α} {f : α → GoRes β} (hx : x ≠ .panic)
    (hf : ∀ a, x = .ok a → f a ≠ .panic) : (x >>= f) ≠ .panic := by
  cases x with
  | ok a => simpa using hf a rfl
  | err => simp
  | panic => exact absurd rfl hx

end GoRes

@[simp] theorem beBytes_length (k v : Nat) : (beBytes k v).length = k := by
  induction k with
  | zero => rfl
  | succ k ih => simp [beBytes, ih]

theorem beNat_lt (l : Bytes) : beNat l < 256 ^ l.length := by
  induction l with
  | nil => simp [beNat]
  | cons b l ih =>
    have hb : b.toNat < 256 := b.isLt
    simp only [beNat, List.length_cons, Nat.pow_succ]
    have : (b.toNat + 1) * 256 ^ l.length ≤ 256 * 256 ^ l.length := Nat.mul_le_mul_right _ (by omega)
    rw [Nat.add_mul] at this
    omega

theorem beNat_beBytes (k v : Nat) : beNat (beBytes k v) = v % 256 ^ k := by
  induction k with
  | zero => simp [beBytes, beNat, Nat.mod_one]
  | succ k ih =>
    simp only [beBytes, beNat, beBytes_length, ih, BitVec.toNat_ofNat]
    have : (2 : Nat) ^ 8 = 256 := rfl
    rw [this, Nat.pow_succ, Nat.mod_mul, Nat.add_comm, Nat.mul_comm]

theorem beBytes_beNat (l : Bytes) : beBytes l.length (beNat l) = l := by
  induction l with
  | nil => rfl
  | cons b l ih =>
    have hl := beNat_lt l
    have hpos : 0 < 256 ^ l.length := Nat.pow_pos (by omega)
    have key : ∀ (m x : Nat), beBytes m (x * 256 ^ m + beNat l) = beBytes m (beNat l) := by
      intro m x
      induction m generalizing x with
      | zero => rfl
      | succ m ihm =>
        simp only [beBytes]
        congr 1
        · apply BitVec.eq_of_toNat_eq
          simp only [BitVec.toNat_ofNat]
          have h1 : x * 256 ^ (m + 1) = (x * 256) * 256 ^ m := by
            rw [Nat.pow_succ]; rw [Nat.mul_assoc, Nat.mul_comm 256]
          rw [h1, Nat.add_comm, Nat.add_mul_div_right _ _ (Nat.pow_pos (by omega))]
          have : (2 : Nat) ^ 8 = 256 := rfl
          rw [this]
          omega
        · have h1 : x * 256 ^ (m + 1) = (x * 256) * 256 ^ m := by
            rw [Nat.pow_succ]; rw [Nat.mul_assoc, Nat.mul_comm 256]
          rw [h1]; exact ihm _
    simp only [List.length_cons, beBytes, beNat]
    congr 1
    · apply BitVec.eq_of_toNat_eq
      simp only [BitVec.toNat_ofNat]
      rw [Nat.add_comm, Nat.add_mul_div_right _ _ hpos, Nat.div_eq_of_lt hl]
      have := b.isLt
      omega
    · rw [key]; exact ih

theorem beNat_inj {a b : Bytes} (hl : a.length = b.length) (h : beNat a = beNat b) : a = b := by
  rw [← beBytes_beNat a, ← beBytes_beNat b, hl, h]

@[simp] theorem beNat_singleton (b : U8) : beNat [b] = b.toNat := by simp [beNat]

/-- Value written by `w16` read back. -/
theorem ofNat16_w16 (x : U16) : BitVec.ofNat 16 (beNat (Pdu.w16 x)) = x := by
  apply BitVec.eq_of_toNat_eq
  have := x.isLt
  simp only [Pdu.w16, beNat_beBytes, BitVec.toNat_ofNat]
  omega

theorem ofNat32_w32 (x : U32) : BitVec.ofNat 32 (beNat (Pdu.w32 x)) = x := by
  apply BitVec.eq_of_toNat_eq
  have := x.isLt
  simp only [Pdu.w32, beNat_beBytes, BitVec.toNat_ofNat]
  omega

@[simp] theorem w16_length (x : U16) : (Pdu.w16 x).length = 2 := by simp [Pdu.w16]
@[simp] theorem w32_length (x : U32) : (Pdu.w32 x).length = 4 := by simp [Pdu.w32]
@[simp] theorem w8_length (x : U8) : (Pdu.w8 x).length = 1 := by simp [Pdu.w8]
@[simp] theorem wlen_length (n : Nat) : (Pdu.wlen n).length = 4 := by simp [Pdu.wlen]
@[simp] theorem wbits_length (p : Prefix) : (Pdu.wbits p).length = 1 := by simp [Pdu.wbits]

theorem beNat_wlen (n : Nat) (h : n < 2 ^ 32) : beNat (Pdu.wlen n) = n := by
  simp only [Pdu.wlen, Pdu.w32, beNat_beBytes, BitVec.toNat_ofNat]
  omega

theorem readN_append (a b : Bytes) : readN a.length (a ++ b) = .ok (a, b) := by
  simp [readN]

theorem readN_append' {n : Nat} {a : Bytes} (b : Bytes) (h : a.length = n) : readN n (a ++ b) = .ok (a, b) := by
  subst h; exact readN_append a b

theorem goSlice_ok {l : Bytes} {lo hi : Nat} (h1 : lo ≤ hi) (h2 : hi ≤ l.length) :
    goSlice l lo hi = .ok ((l.drop lo).take (hi - lo)) := by
  simp [goSlice, h1, h2]

theorem goUint32_ok {b : Bytes} (h : 4 ≤ b.length) : goUint32 b = .ok (BitVec.ofNat 32 (beNat (b.take 4))) := by
  simp [goUint32, h]

theorem goUint32_w32 (x : U32) : goUint32 (Pdu.w32 x) = .ok x := by
  rw [goUint32_ok (by simp), List.take_of_length_le (by simp), ofNat32_w32]

theorem goUint32_w32_append (x : U32) (r : Bytes) : goUint32 (Pdu.w32 x ++ r) = .ok x := by
  rw [goUint32_ok (by simp), List.take_append_of_le_length (by simp), List.take_of_length_le (by simp), ofNat32_w32]

theorem goIndex_ok {α : Type} {l : List α} {i : Nat} (h : i < l.length) : goIndex l i = .ok l[i] := by
  simp [goIndex, h]

/-- A slice that is exactly the middle of a concatenation. -/
theorem goSlice_mid (a b c : Bytes) {lo hi : Nat} (h1 : a.length = lo) (h2 : lo + b.length = hi) :
    goSlice (a ++ (b ++ c)) lo hi = .ok b := by
  subst h1
  rw [goSlice_ok (by omega) (by simp; omega)]
  simp [← h2]

theorem goSlice_tail (a b : Bytes) {lo hi : Nat} (h1 : a.length = lo) (h2 : lo + b.length = hi) :
    goSlice (a ++ b) lo hi = .ok b := by
  have := goSlice_mid a b [] h1 h2
  simpa using this

theorem goSlice_head (b c : Bytes) {hi : Nat} (h2 : b.length = hi) :
    goSlice (b ++ c) 0 hi = .ok b := by
  have := goSlice_mid [] b c (lo := 0) (hi := hi) rfl (by simpa using h2)
  simpa using this

end StayRTR
