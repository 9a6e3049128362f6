import Verif.Proofs.Bytes
import Verif.Spec.Wire

/-! Helper lemmas for the codec properties. -/

namespace StayRTR

open Pdu Spec

theorem foldl_beNat (l : Bytes) (acc : Nat) :
    l.foldl (fun acc x => acc * 256 + x.toNat) acc = acc * 256 ^ l.length + beNat l := by
  induction l generalizing acc with
  | nil => simp [beNat]
  | cons b l ih =>
    simp only [List.foldl_cons, ih, beNat, List.length_cons, Nat.pow_succ, Nat.add_mul]
    rw [Nat.mul_assoc, Nat.mul_comm 256 (256 ^ l.length)]
    omega

theorem field_eq (b : Bytes) (off w : Nat) : field b off w = beNat ((b.drop off).take w) := by
  simp [field, foldl_beNat]

theorem field_skip (x r : Bytes) (off w : Nat) (h : x.length ≤ off) :
    field (x ++ r) off w = field r (off - x.length) w := by
  simp only [field_eq, List.drop_append, List.drop_of_length_le h, List.nil_append]

theorem field_here (x r : Bytes) (w : Nat) (h : x.length = w) : field (x ++ r) 0 w = beNat x := by
  subst h; simp [field_eq]

theorem field_here' (x : Bytes) (w : Nat) (h : x.length = w) : field x 0 w = beNat x := by
  subst h; simp [field_eq]

theorem blob_skip (x r : Bytes) (off w : Nat) (h : x.length ≤ off) :
    blob (x ++ r) off w = blob r (off - x.length) w := by
  simp only [blob, List.drop_append, List.drop_of_length_le h, List.nil_append]

theorem blob_here (x r : Bytes) (w : Nat) (h : x.length = w) : blob (x ++ r) 0 w = x := by
  subst h; simp [blob]

theorem blob_here' (x : Bytes) (w : Nat) (h : x.length = w) : blob x 0 w = x := by
  subst h; simp [blob]

theorem beNat_w16 (x : U16) : beNat (w16 x) = x.toNat := by
  have := x.isLt; simp only [w16, beNat_beBytes]; omega

theorem beNat_w32 (x : U32) : beNat (w32 x) = x.toNat := by
  have := x.isLt; simp only [w32, beNat_beBytes]; omega

theorem beNat_w8 (x : U8) : beNat (w8 x) = x.toNat := by simp [w8]

theorem as16_length (a : Addr) : a.as16.length = 16 := by cases a <;> simp [Addr.as16]

theorem bits_toNat {n : Nat} (h : n ≤ 128) (ip : Addr) :
    (BitVec.ofInt 8 (Prefix.bits ⟨ip, n + 1⟩)).toNat = n := by
  have : Prefix.bits ⟨ip, n + 1⟩ = (n : Int) := by simp [Prefix.bits]
  rw [this, BitVec.ofInt_natCast, BitVec.toNat_ofNat]
  omega

/-- Shape of every encoding: 8-byte header then body. -/
theorem decode_frame (v t : U8) (s : U16) (n : Nat) (body rest : Bytes) (hn : body.length + 8 = n)
    (hmax : n ≤ messageMaxSize) :
    decode (w8 v ++ (w8 t ++ (w16 s ++ (wlen n ++ (body ++ rest))))) =
      (do let pdu ← decodeBody v t s body; return (pdu, rest)) := by
  have h32 : n < 2 ^ 32 := Nat.lt_of_le_of_lt hmax (by decide)
  unfold decode
  rw [readN_append' _ (w8_length v)]
  simp only [GoRes.bind_ok']
  rw [readN_append' _ (w8_length t)]
  simp only [GoRes.bind_ok']
  rw [readN_append' _ (w16_length s)]
  simp only [GoRes.bind_ok']
  rw [readN_append' _ (wlen_length n)]
  simp only [GoRes.bind_ok', beNat_wlen n h32]
  have h1 : ¬ n < 8 := by omega
  have h2 : ¬ n > messageMaxSize := by omega
  rw [if_neg h1, if_neg h2]
  have h3 : body.length = n - 8 := by omega
  rw [readN_append' _ h3]
  simp only [GoRes.bind_ok', ofNat16_w16, w8, beNat_singleton, BitVec.ofNat_toNat, BitVec.setWidth_eq]

end StayRTR

namespace StayRTR

open Pdu Spec

theorem w8_toNat (x : U8) : w8 x = beBytes 1 x.toNat := by
  simp [w8, beBytes]

theorem fromSlice_beBytes4 (a : BitVec 32) : Addr.fromSlice (beBytes 4 a.toNat) = some (.v4 a) := by
  have := a.isLt
  simp only [Addr.fromSlice, beBytes_length, if_true, beNat_beBytes]
  congr 2
  apply BitVec.eq_of_toNat_eq
  simp only [BitVec.toNat_ofNat]
  omega

theorem fromSlice_beBytes16 (a : BitVec 128) : Addr.fromSlice (beBytes 16 a.toNat) = some (.v6 a) := by
  have := a.isLt
  simp only [Addr.fromSlice, beBytes_length]
  rw [if_neg (by decide)]
  simp only [if_true, beNat_beBytes]
  congr 2
  apply BitVec.eq_of_toNat_eq
  simp only [BitVec.toNat_ofNat]
  have h : (256 : Nat) ^ 16 = 2 ^ 128 := by decide
  rw [h, Nat.mod_mod, Nat.mod_eq_of_lt this]

theorem from'_v4 (a : BitVec 32) {n : Nat} (h : n ≤ 32) : Prefix.from' (.v4 a) n = ⟨.v4 a, n + 1⟩ := by
  simp [Prefix.from', Addr.bitLen, h]

theorem from'_v6 (a : BitVec 128) {n : Nat} (h : n ≤ 128) : Prefix.from' (.v6 a) n = ⟨.v6 a, n + 1⟩ := by
  simp [Prefix.from', Addr.bitLen, h]

theorem decodeBody_ipv4 (v : U8) (s : U16) (f m : U8) (a : BitVec 32) (n : Nat) (hn : n ≤ 32) (asn : U32) :
    decodeBody v pduIPv4Prefix s (w8 f ++ (wbits ⟨.v4 a, n + 1⟩ ++ (w8 m ++ (w8 0 ++ (beBytes 4 a.toNat ++ w32 asn))))) =
      .ok (.ipv4Prefix v f ⟨.v4 a, n + 1⟩ m asn) := by
  have hb := bits_toNat (n := n) (by omega) (.v4 a)
  unfold decodeBody
  rw [if_neg (by decide), if_neg (by decide), if_neg (by decide), if_neg (by decide), if_pos rfl]
  rw [if_neg (by simp)]
  have e1 : goSlice (w8 f ++ (wbits ⟨.v4 a, n + 1⟩ ++ (w8 m ++ (w8 0 ++ (beBytes 4 a.toNat ++ w32 asn))))) 4 8 = .ok (beBytes 4 a.toNat) := by
    have := goSlice_mid (w8 f ++ wbits ⟨.v4 a, n + 1⟩ ++ w8 m ++ w8 0) (beBytes 4 a.toNat) (w32 asn) (lo := 4) (hi := 8) (by simp) (by simp)
    simpa using this
  have e2 : ∀ hi, hi = 12 → goSlice (w8 f ++ (wbits ⟨.v4 a, n + 1⟩ ++ (w8 m ++ (w8 0 ++ (beBytes 4 a.toNat ++ w32 asn))))) 8 hi = .ok (w32 asn) := by
    intro hi hhi
    have := goSlice_tail (w8 f ++ wbits ⟨.v4 a, n + 1⟩ ++ w8 m ++ w8 0 ++ beBytes 4 a.toNat) (w32 asn) (lo := 8) (hi := hi) (by simp) (by simp [hhi])
    simpa using this
  rw [e1, e2 _ (by simp)]
  simp only [GoRes.bind_ok', fromSlice_beBytes4, goUint32_w32]
  simp [goIndex, w8, wbits, hb, from'_v4 a hn]

theorem decodeBody_ipv6 (v : U8) (s : U16) (f m : U8) (a : BitVec 128) (n : Nat) (hn : n ≤ 128) (asn : U32) :
    decodeBody v pduIPv6Prefix s (w8 f ++ (wbits ⟨.v6 a, n + 1⟩ ++ (w8 m ++ (w8 0 ++ (beBytes 16 a.toNat ++ w32 asn))))) =
      .ok (.ipv6Prefix v f ⟨.v6 a, n + 1⟩ m asn) := by
  have hb := bits_toNat (n := n) (by omega) (.v6 a)
  unfold decodeBody
  rw [if_neg (by decide), if_neg (by decide), if_neg (by decide), if_neg (by decide), if_neg (by decide), if_pos rfl]
  rw [if_neg (by simp)]
  have e1 : goSlice (w8 f ++ (wbits ⟨.v6 a, n + 1⟩ ++ (w8 m ++ (w8 0 ++ (beBytes 16 a.toNat ++ w32 asn))))) 4 20 = .ok (beBytes 16 a.toNat) := by
    have := goSlice_mid (w8 f ++ wbits ⟨.v6 a, n + 1⟩ ++ w8 m ++ w8 0) (beBytes 16 a.toNat) (w32 asn) (lo := 4) (hi := 20) (by simp) (by simp)
    simpa using this
  have e2 : ∀ hi, hi = 24 → goSlice (w8 f ++ (wbits ⟨.v6 a, n + 1⟩ ++ (w8 m ++ (w8 0 ++ (beBytes 16 a.toNat ++ w32 asn))))) 20 hi = .ok (w32 asn) := by
    intro hi hhi
    have := goSlice_tail (w8 f ++ wbits ⟨.v6 a, n + 1⟩ ++ w8 m ++ w8 0 ++ beBytes 16 a.toNat) (w32 asn) (lo := 20) (hi := hi) (by simp) (by simp [hhi])
    simpa using this
  rw [e1, e2 _ (by simp)]
  simp only [GoRes.bind_ok', fromSlice_beBytes16, goUint32_w32]
  simp [goIndex, w8, wbits, hb, from'_v6 a hn]

theorem decodeBody_eod16 (v : U8) (s : U16) (n a b c : U32) :
    decodeBody v pduEndOfData s (w32 n ++ (w32 a ++ (w32 b ++ w32 c))) = .ok (.endOfData v s n a b c) := by
  unfold decodeBody
  rw [if_neg (by decide), if_neg (by decide), if_neg (by decide), if_neg (by decide), if_neg (by decide), if_neg (by decide), if_pos rfl]
  rw [if_neg (by simp), if_neg (by simp)]
  have e1 : goSlice (w32 n ++ (w32 a ++ (w32 b ++ w32 c))) 0 4 = .ok (w32 n) := goSlice_head _ _ (by simp)
  have e2 : goSlice (w32 n ++ (w32 a ++ (w32 b ++ w32 c))) 4 8 = .ok (w32 a) := goSlice_mid (w32 n) (w32 a) _ (by simp) (by simp)
  have e3 : goSlice (w32 n ++ (w32 a ++ (w32 b ++ w32 c))) 8 12 = .ok (w32 b) := by
    have := goSlice_mid (w32 n ++ w32 a) (w32 b) (w32 c) (lo := 8) (hi := 12) (by simp) (by simp)
    simpa using this
  have e4 : goSlice (w32 n ++ (w32 a ++ (w32 b ++ w32 c))) 12 16 = .ok (w32 c) := by
    have := goSlice_tail (w32 n ++ w32 a ++ w32 b) (w32 c) (lo := 12) (hi := 16) (by simp) (by simp)
    simpa using this
  simp only [e1, e2, e3, e4, GoRes.bind_ok', goUint32_w32, GoRes.pure_eq]

theorem decodeBody_routerKey (v : U8) (f z : U8) (ski : Bytes) (asn : U32) (spki : Bytes)
    (h1 : ski.length = 20) (h2 : 4 ≤ spki.length) :
    decodeBody v pduRouterKey (BitVec.ofNat 16 (beNat [f, z])) (ski ++ (w32 asn ++ spki)) =
      .ok (.routerKey v f ski asn spki) := by
  unfold decodeBody
  rw [if_neg (by decide), if_neg (by decide), if_neg (by decide), if_neg (by decide), if_neg (by decide), if_neg (by decide), if_neg (by decide), if_neg (by decide), if_pos rfl]
  rw [if_neg (by simp; omega)]
  have e1 : goSlice (ski ++ (w32 asn ++ spki)) 20 24 = .ok (w32 asn) := goSlice_mid ski (w32 asn) spki h1 (by simp)
  have e2 : goSlice (ski ++ (w32 asn ++ spki)) 24 (ski ++ (w32 asn ++ spki)).length = .ok spki := by
    have := goSlice_tail (ski ++ w32 asn) spki (lo := 24) (hi := (ski ++ (w32 asn ++ spki)).length) (by simp [h1]) (by simp; omega)
    simpa using this
  have e3 : goSlice (ski ++ (w32 asn ++ spki)) 0 20 = .ok ski := goSlice_head _ _ h1
  rw [e1, e2, e3]
  simp only [GoRes.bind_ok', goUint32_w32, GoRes.pure_eq]
  congr 2
  apply BitVec.eq_of_toNat_eq
  have hf := f.isLt
  have hz := z.isLt
  simp only [BitVec.truncate_eq_setWidth, BitVec.toNat_setWidth, BitVec.toNat_ushiftRight, BitVec.toNat_ofNat, beNat,
    Nat.shiftRight_eq_div_pow, List.length_cons, List.length_nil]
  omega

theorem goUint32_wlen (n : Nat) : goUint32 (wlen n) = .ok (BitVec.ofNat 32 n) := goUint32_w32 _

theorem decodeBody_errorReport (v : U8) (c : U16) (cp text : Bytes) (h : 16 + cp.length + text.length ≤ 262168) :
    decodeBody v pduErrorReport c (wlen cp.length ++ (cp ++ (wlen text.length ++ text))) =
      .ok (.errorReport v c cp text) := by
  unfold decodeBody
  rw [if_neg (by decide), if_neg (by decide), if_neg (by decide), if_neg (by decide), if_neg (by decide), if_neg (by decide), if_neg (by decide), if_neg (by decide), if_neg (by decide), if_pos rfl]
  rw [if_neg (by simp; omega)]
  have e1 : goSlice (wlen cp.length ++ (cp ++ (wlen text.length ++ text))) 0 4 = .ok (wlen cp.length) := goSlice_head _ _ (by simp)
  rw [e1]
  rw [GoRes.bind_ok', goUint32_wlen, GoRes.bind_ok']
  have n1 : (BitVec.ofNat 32 cp.length).toNat = cp.length := by simp only [BitVec.toNat_ofNat]; omega
  have n2 : (BitVec.ofNat 32 text.length).toNat = text.length := by simp only [BitVec.toNat_ofNat]; omega
  have n3 : (BitVec.ofNat 32 cp.length + 4).toNat = cp.length + 4 := by
    rw [BitVec.toNat_add, n1]; simp; omega
  have n4 : (BitVec.ofNat 32 cp.length + 8).toNat = cp.length + 8 := by
    rw [BitVec.toNat_add, n1]; simp; omega
  have n5 : (BitVec.ofNat 32 cp.length + 8 + BitVec.ofNat 32 text.length).toNat = cp.length + 8 + text.length := by
    rw [BitVec.toNat_add, n4, n2]; omega
  rw [n1, n3, n4]
  have hc : ¬ (wlen cp.length ++ (cp ++ (wlen text.length ++ text))).length < cp.length + 8 := by
    simp; omega
  rw [if_neg hc]
  have e2 : goSlice (wlen cp.length ++ (cp ++ (wlen text.length ++ text))) 4 (cp.length + 4) = .ok cp :=
    goSlice_mid _ cp _ (by simp) (by omega)
  have e3 : goSlice (wlen cp.length ++ (cp ++ (wlen text.length ++ text))) (cp.length + 4) (cp.length + 8) =
      .ok (wlen text.length) := by
    have := goSlice_mid (wlen cp.length ++ cp) (wlen text.length) text (lo := cp.length + 4) (hi := cp.length + 8)
      (by simp; omega) (by simp)
    simpa using this
  rw [e2, e3]
  rw [GoRes.bind_ok', GoRes.bind_ok', goUint32_wlen, GoRes.bind_ok', n5, n2]
  rw [if_neg (by simp; omega)]
  have e4 : goSlice (wlen cp.length ++ (cp ++ (wlen text.length ++ text))) (cp.length + 8) (cp.length + 8 + text.length) =
      .ok text := by
    have := goSlice_tail (wlen cp.length ++ cp ++ wlen text.length) text (lo := cp.length + 8) (hi := cp.length + 8 + text.length)
      (by simp; omega) (by omega)
    simpa using this
  rw [e4]
  simp

end StayRTR

namespace StayRTR

open Pdu Spec

/-- Normal form of `decode` in terms of fields at fixed offsets. -/
theorem decode_eq (s : Bytes) :
    decode s =
      if s.length < 8 then .err
      else if field s 4 4 < 8 then .err
      else if field s 4 4 > messageMaxSize then .err
      else if s.length < field s 4 4 then .err
      else do
        let p ← decodeBody (BitVec.ofNat 8 (field s 0 1)) (BitVec.ofNat 8 (field s 1 1)) (BitVec.ofNat 16 (field s 2 2))
          (blob s 8 (field s 4 4 - 8))
        return (p, s.drop (field s 4 4)) := by
  simp only [field_eq, blob]
  unfold decode
  by_cases h1 : 1 ≤ s.length
  · simp only [readN, h1, if_true, GoRes.bind_ok', List.length_drop, List.drop_drop]
    by_cases h2 : 1 ≤ s.length - 1
    · simp only [h2, if_true, GoRes.bind_ok', List.length_drop, List.drop_drop]
      by_cases h3 : 2 ≤ s.length - (1 + 1)
      · simp only [h3, if_true, GoRes.bind_ok', List.length_drop, List.drop_drop]
        by_cases h4 : 4 ≤ s.length - (1 + 1 + 2)
        · rw [if_pos h4, if_neg (by omega : ¬ s.length < 8)]
          simp only [GoRes.bind_ok', List.drop_zero, List.length_drop, List.drop_drop]
          have e4 : 1 + 1 + 2 = 4 := rfl
          have e8 : 4 + 4 = 8 := rfl
          have e2 : 1 + 1 = 2 := rfl
          simp only [e2, e4, e8]
          by_cases h5 : beNat ((s.drop 4).take 4) < 8
          · rw [if_pos h5, if_pos h5]
          · rw [if_neg h5, if_neg h5]
            by_cases h6 : beNat ((s.drop 4).take 4) > messageMaxSize
            · rw [if_pos h6, if_pos h6]
            · rw [if_neg h6, if_neg h6]
              by_cases h7 : s.length < beNat ((s.drop 4).take 4)
              · rw [if_pos h7, if_neg (by omega)]
                simp only [GoRes.bind_err']
              · rw [if_neg h7, if_pos (by omega)]
                simp only [GoRes.bind_ok', GoRes.pure_eq]
                have : 8 + (beNat ((s.drop 4).take 4) - 8) = beNat ((s.drop 4).take 4) := by omega
                rw [this]
        · rw [if_neg h4, if_pos (by omega : s.length < 8)]
          simp only [GoRes.bind_err']
      · rw [if_pos (by omega : s.length < 8)]
        simp only [h3, if_false, GoRes.bind_err']
    · rw [if_pos (by omega : s.length < 8)]
      simp only [h2, if_false, GoRes.bind_err']
  · rw [if_pos (by omega : s.length < 8)]
    simp only [readN, h1, if_false, GoRes.bind_err']

end StayRTR
