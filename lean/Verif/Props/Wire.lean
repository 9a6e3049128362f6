import Verif.Proofs.DecodeBody

/-!
# Properties of the wire format: C01-C07
-/

set_option linter.unusedSimpArgs false

namespace StayRTR

open Pdu Spec

/-! ## C01 -/

theorem decodeBody_ne_panic (v t : U8) (s : U16) (b : Bytes) (hmax : b.length < 2 ^ 31) : decodeBody v t s b ≠ .panic := by
  rcases decodeBody_cases v t s b hmax with h | h | h | h | h | h | h | h | h | h | h <;> rw [h.2] <;>
    (repeat' split) <;> simp

/-- C01: whatever bytes a peer sends, `Decode` never panics. -/
theorem C01_decode_never_panics (s : Bytes) : decode s ≠ .panic := by
  rw [decode_eq]
  split; · simp
  split; · simp
  split; · simp
  split; · simp
  rename_i h1 h2 h3 h4
  have hb : (blob s 8 (field s 4 4 - 8)).length < 2 ^ 31 := by
    have : (blob s 8 (field s 4 4 - 8)).length ≤ field s 4 4 - 8 := by simp [blob]; omega
    have h5 : field s 4 4 ≤ 262168 := Nat.not_lt.mp h3
    omega
  apply GoRes.bind_ne_panic (decodeBody_ne_panic _ _ _ _ hb)
  intro a _
  simp

/-- C01, `DecodeBytes` (what the server calls on each packet). -/
theorem C01_decodeBytes_never_panics (s : Bytes) : decodeBytes s ≠ .panic := by
  unfold decodeBytes
  apply GoRes.bind_ne_panic (C01_decode_never_panics s)
  rintro ⟨p, r⟩ _
  simp

/-- The hostile Error Report of the comment at lib/structs.go:691: inner lengths whose uint32 sum wraps around. -/
example : decode [1, 10, 0, 0, 0, 0, 0, 24, 0, 0, 0, 8, 1, 2, 3, 4, 5, 6, 7, 8, 0xff, 0xff, 0xff, 0xff] = .err := by decide

/-! ## C02 -/

/-- C02: decoding the encoding of a representable PDU gives the PDU back and leaves exactly the bytes that follow. -/
theorem C02_decode_encode (p : Pdu) (hp : Representable p) (rest : Bytes) :
    ∃ b, encode p = .ok b ∧ decode (b ++ rest) = .ok (received p, rest) := by
  cases p with
  | serialNotify v s n =>
    refine ⟨_, rfl, ?_⟩
    have := decode_frame v pduSerialNotify s 12 (w32 n) rest (by simp) (by decide)
    simp only [List.append_assoc]
    rw [this]
    unfold decodeBody
    rw [if_pos rfl, if_neg (by simp), goUint32_w32]
    simp [received]
  | serialQuery v s n =>
    refine ⟨_, rfl, ?_⟩
    have := decode_frame v pduSerialQuery s 12 (w32 n) rest (by simp) (by decide)
    simp only [List.append_assoc]
    rw [this]
    unfold decodeBody
    rw [if_neg (by decide), if_pos rfl, if_neg (by simp), goUint32_w32]
    simp [received]
  | resetQuery v =>
    refine ⟨_, rfl, ?_⟩
    have := decode_frame v pduResetQuery 0 8 [] rest (by simp) (by decide)
    simp only [List.append_assoc]
    simp only [List.nil_append] at this
    rw [this]
    rfl
  | cacheResponse v s =>
    refine ⟨_, rfl, ?_⟩
    have := decode_frame v pduCacheResponse s 8 [] rest (by simp) (by decide)
    simp only [List.append_assoc]
    simp only [List.nil_append] at this
    rw [this]
    rfl
  | ipv4Prefix v f p m a =>
    obtain ⟨ip, n, rfl, hn⟩ := hp
    refine ⟨_, rfl, ?_⟩
    have := decode_frame v pduIPv4Prefix 0 20 (w8 f ++ (wbits ⟨.v4 ip, n + 1⟩ ++ (w8 m ++ (w8 0 ++ (beBytes 4 ip.toNat ++ w32 a))))) rest
      (by simp) (by decide)
    simp only [List.append_assoc] at this ⊢
    rw [this, decodeBody_ipv4 v 0 f m ip n hn a]
    rfl
  | ipv6Prefix v f p m a =>
    obtain ⟨ip, n, rfl, hn⟩ := hp
    refine ⟨_, rfl, ?_⟩
    have := decode_frame v pduIPv6Prefix 0 32 (w8 f ++ (wbits ⟨.v6 ip, n + 1⟩ ++ (w8 m ++ (w8 0 ++ (beBytes 16 ip.toNat ++ w32 a))))) rest
      (by simp) (by decide)
    simp only [List.append_assoc, Addr.as16] at this ⊢
    rw [this, decodeBody_ipv6 v 0 f m ip n hn a]
    rfl
  | endOfData v s n r t e =>
    by_cases hv : v = 0
    · obtain ⟨rfl, rfl, rfl⟩ := hp hv
      refine ⟨_, by rw [encode, if_pos hv], ?_⟩
      have := decode_frame v pduEndOfData s 12 (w32 n) rest (by simp) (by decide)
      simp only [List.append_assoc]
      rw [this]
      rcases decodeBody_cases v pduEndOfData s (w32 n) (by simp) with h | h | h | h | h | h | h | h | h | h | h
      case inr.inr.inr.inr.inr.inr.inl =>
        rw [h.2, if_pos (by simp), field_here' _ _ (by simp), ofNat32_w32]; rfl
      all_goals exact absurd h.1 (by decide)
    · refine ⟨_, by rw [encode, if_neg hv], ?_⟩
      have := decode_frame v pduEndOfData s 24 (w32 n ++ (w32 r ++ (w32 t ++ w32 e))) rest (by simp) (by decide)
      simp only [List.append_assoc] at this ⊢
      rw [this, decodeBody_eod16]
      rfl
  | cacheReset v =>
    refine ⟨_, rfl, ?_⟩
    have := decode_frame v pduCacheReset 0 8 [] rest (by simp) (by decide)
    simp only [List.append_assoc]
    simp only [List.nil_append] at this
    rw [this]
    rfl
  | routerKey v f ski a spki =>
    obtain ⟨h1, h2, h3⟩ := hp
    refine ⟨_, by rw [encode, if_neg (by omega)], ?_⟩
    have := decode_frame v pduRouterKey (BitVec.ofNat 16 (beNat [f, 0])) (32 + spki.length) (ski ++ (w32 a ++ spki)) rest
      (by simp; omega) h3
    have e : w16 (BitVec.ofNat 16 (beNat [f, 0])) = w8 f ++ w8 0 := by
      apply beNat_inj (by simp)
      rw [beNat_w16, BitVec.toNat_ofNat]
      have := beNat_lt [f, 0]
      simp only [w8, List.length_cons, List.length_nil] at this ⊢
      rw [Nat.mod_eq_of_lt (by omega)]
      rfl
    rw [e] at this
    simp only [List.append_assoc] at this ⊢
    rw [this, decodeBody_routerKey v f 0 ski a spki h1 h2]
    rfl
  | errorReport v c cp msg =>
    simp only [Representable] at hp
    by_cases hm : msg = []
    · subst hm
      refine ⟨_, rfl, ?_⟩
      have := decode_frame v pduErrorReport c (12 + cp.length + 4) (wlen cp.length ++ (cp ++ (wlen 0 ++ []))) rest
        (by simp; omega) (show 12 + cp.length + 4 ≤ 262168 by simp at hp; omega)
      have hb := decodeBody_errorReport v c cp [] (by simp at hp ⊢; omega)
      simp only [List.append_assoc, List.length_nil, List.nil_append, List.append_nil, ne_eq, not_true, if_false, Nat.add_zero] at this hb ⊢
      rw [this, hb]
      rfl
    · refine ⟨_, rfl, ?_⟩
      have := decode_frame v pduErrorReport c (12 + cp.length + 4 + msg.length + 1) (wlen cp.length ++ (cp ++ (wlen (msg.length + 1) ++ (msg ++ w8 0)))) rest
        (by simp; omega) (show 12 + cp.length + 4 + msg.length + 1 ≤ 262168 by omega)
      have hb := decodeBody_errorReport v c cp (msg ++ w8 0) (by simp; omega)
      simp only [List.length_append, w8_length] at hb
      simp only [List.append_assoc, hm, ne_eq, not_false_eq_true, if_true] at this ⊢
      rw [this, hb]
      simp [received, hm, w8]

/-- A representable IPv6 prefix PDU, and an Error Report, with arbitrary bytes following. -/
example : Representable (.ipv6Prefix 1 1 ⟨.v6 (BitVec.ofNat 128 (0x20010db8 * 2 ^ 96)), 33⟩ 48 65001) :=
  ⟨BitVec.ofNat 128 (0x20010db8 * 2 ^ 96), 32, rfl, by decide⟩
example : ∃ b, encode (.errorReport 1 2 [1, 2] [0x6e]) = .ok b ∧ decode (b ++ [9]) = .ok (.errorReport 1 2 [1, 2] [0x6e, 0], [9]) :=
  ⟨_, rfl, by decide⟩

/-! ## C03 -/

/-- C03: the encoding of every representable PDU has the RFC layout. -/
theorem C03_wire_layout (p : Pdu) (hp : Representable p) : ∃ b, encode p = .ok b ∧ WireLayout p b := by
  cases p with
  | serialNotify v s n =>
    refine ⟨_, rfl, ?_⟩
    simp [WireLayout, field_skip, field_here, field_here', beNat_w8, beNat_w16, beNat_w32, beNat_wlen, pduSerialNotify]
  | serialQuery v s n =>
    refine ⟨_, rfl, ?_⟩
    simp [WireLayout, field_skip, field_here, field_here', beNat_w8, beNat_w16, beNat_w32, beNat_wlen, pduSerialQuery]
  | resetQuery v =>
    refine ⟨_, rfl, ?_⟩
    simp [WireLayout, field_skip, field_here, field_here', beNat_w8, beNat_w16, beNat_w32, beNat_wlen, pduResetQuery]
  | cacheResponse v s =>
    refine ⟨_, rfl, ?_⟩
    simp [WireLayout, field_skip, field_here, field_here', beNat_w8, beNat_w16, beNat_w32, beNat_wlen, pduCacheResponse]
  | ipv4Prefix v f p m a =>
    obtain ⟨ip, n, rfl, hn⟩ := hp
    refine ⟨_, rfl, ?_⟩
    have hip := ip.isLt
    have hb : beNat (wbits ⟨.v4 ip, n + 1⟩) = n := by
      have := bits_toNat (n := n) (by omega) (.v4 ip)
      simpa [wbits, w8] using this
    have ha : BitVec.ofNat 32 (beNat (beBytes 4 ip.toNat)) = ip := by
      apply BitVec.eq_of_toNat_eq
      simp only [beNat_beBytes, BitVec.toNat_ofNat]; omega
    simp [WireLayout, field_skip, field_here, field_here', beNat_w8, beNat_w16, beNat_w32, beNat_wlen, pduIPv4Prefix, hb, ha,
      Prefix.bits]
  | ipv6Prefix v f p m a =>
    obtain ⟨ip, n, rfl, hn⟩ := hp
    refine ⟨_, rfl, ?_⟩
    have hip := ip.isLt
    have hb : beNat (wbits ⟨.v6 ip, n + 1⟩) = n := by
      have := bits_toNat (n := n) (by omega) (.v6 ip)
      simpa [wbits, w8] using this
    have ha : BitVec.ofNat 128 (beNat (beBytes 16 ip.toNat)) = ip := by
      apply BitVec.eq_of_toNat_eq
      simp only [beNat_beBytes, BitVec.toNat_ofNat]
      have h : (256 : Nat) ^ 16 = 2 ^ 128 := by decide
      rw [h, Nat.mod_mod, Nat.mod_eq_of_lt hip]
    simp [WireLayout, field_skip, field_here, field_here', beNat_w8, beNat_w16, beNat_w32, beNat_wlen, pduIPv6Prefix, hb, ha,
      Prefix.bits, Addr.as16]
  | endOfData v s n r t e =>
    by_cases hv : v = 0
    · refine ⟨_, by rw [encode, if_pos hv], ?_⟩
      simp [WireLayout, hv, field_skip, field_here, field_here', beNat_w8, beNat_w16, beNat_w32, beNat_wlen, pduEndOfData]
    · refine ⟨_, by rw [encode, if_neg hv], ?_⟩
      simp [WireLayout, field_skip, field_here, field_here', beNat_w8, beNat_w16, beNat_w32, beNat_wlen, pduEndOfData]
      exact hv
  | cacheReset v =>
    refine ⟨_, rfl, ?_⟩
    simp [WireLayout, field_skip, field_here, field_here', beNat_w8, beNat_w16, beNat_w32, beNat_wlen, pduCacheReset]
  | routerKey v f ski a spki =>
    obtain ⟨h1, h2, h3⟩ := hp
    refine ⟨_, by rw [encode, if_neg (by omega)], ?_⟩
    have hl : 32 + spki.length < 2 ^ 32 := by omega
    simp [WireLayout, field_skip, field_here, field_here', blob_skip, blob_here, blob_here', beNat_w8, beNat_w16, beNat_w32,
      beNat_wlen _ hl, pduRouterKey, h1]
    omega
  | errorReport v c cp msg =>
    simp only [Representable] at hp
    have henc : ∀ T, T = (if msg = [] then [] else msg ++ [0]) →
        encode (.errorReport v c cp msg) = .ok ((w8 v ++ w8 pduErrorReport ++ w16 c ++ wlen (16 + cp.length + T.length) ++
          wlen cp.length) ++ (cp ++ (wlen T.length ++ T))) := by
      intro T hT
      by_cases hm : msg = []
      · subst hm; simp only [if_true] at hT; subst hT
        have e : 12 + cp.length + 4 = 16 + cp.length := by omega
        simp [encode, e]
      · simp only [hm, if_false] at hT; subst hT
        have e : 12 + cp.length + 4 + msg.length + 1 = 16 + cp.length + (msg.length + 1) := by omega
        simp [encode, hm, w8, e]
    refine ⟨_, henc _ rfl, ?_⟩
    have hT : (if msg = [] then [] else msg ++ [(0 : U8)]).length ≤ msg.length + 1 := by split <;> simp
    simp only [WireLayout]
    generalize (if msg = [] then [] else msg ++ [(0 : U8)]) = T at *
    have h1 : 16 + cp.length + T.length < 2 ^ 32 := by omega
    have h2 : cp.length < 2 ^ 32 := by omega
    have h3 : T.length < 2 ^ 32 := by omega
    have hl : (w8 v ++ w8 pduErrorReport ++ w16 c ++ wlen (16 + cp.length + T.length) ++ wlen cp.length).length = 12 := by simp
    refine ⟨by simp; omega, ?_, ?_, ?_, ?_, ?_, ?_, ?_, ?_⟩
    · simp [field_here, beNat_w8]
    · simp [field_here, field_skip, beNat_w8, pduErrorReport]
    · simp [field_here, field_skip, beNat_w16]
    · simp [field_here, field_skip, beNat_wlen _ h1]
    · simp [field_here, field_skip, beNat_wlen _ h2]
    · rw [blob_skip _ _ _ _ (by omega), hl, Nat.sub_self, blob_here _ _ _ rfl]
    · rw [field_skip _ _ _ _ (by omega), hl, field_skip _ _ _ _ (by omega), (by omega : 12 + cp.length - 12 - cp.length = 0),
        field_here _ _ _ (by simp), beNat_wlen _ h3]
    · rw [blob_skip _ _ _ _ (by omega), hl, blob_skip _ _ _ _ (by omega), blob_skip _ _ _ _ (by simp; omega),
        wlen_length, (by omega : 16 + cp.length - 12 - cp.length - 4 = 0), blob_here' _ _ rfl]

example : WireLayout (.ipv4Prefix 1 1 ⟨.v4 0xC0000200#32, 25⟩ 28 65001)
    [1, 4, 0, 0, 0, 0, 0, 20, 1, 24, 28, 0, 192, 0, 2, 0, 0, 0, 253, 233] := by
  unfold WireLayout; decide

/-! ## C04 -/

/-- C04: whatever is emitted, the length field is the number of bytes emitted (as long as it fits 32 bits). -/
theorem C04_length_field (p : Pdu) (b : Bytes) (h : encode p = .ok b) (hne : b ≠ []) (h32 : b.length < 2 ^ 32) :
    field b 4 4 = b.length := by
  have key : ∀ (x : Bytes) (n : Nat) (r : Bytes), x.length = 4 → n = (x ++ (wlen n ++ r)).length → n < 2 ^ 32 →
      field (x ++ (wlen n ++ r)) 4 4 = (x ++ (wlen n ++ r)).length := by
    intro x n r hx hn hlt
    rw [field_skip _ _ _ _ (by omega), hx, field_here _ _ _ (by simp), beNat_wlen _ hlt]
    exact hn
  have split4 : ∀ (v t : U8) (s : U16) (n : Nat) (r : Bytes), b = w8 v ++ w8 t ++ w16 s ++ (wlen n ++ r) →
      8 + r.length = n → field b 4 4 = b.length := by
    intro v t s n r hb hn
    subst hb
    apply key _ _ _ (by simp) (by simp; omega)
    simp at h32; omega
  have as4len : ∀ (ip : Addr) (x : Bytes), ip.as4 = .ok x → x.length = 4 := by
    intro ip x hx
    cases ip with
    | zero => simp [Addr.as4] at hx
    | v4 a => simp only [Addr.as4, GoRes.ok.injEq] at hx; subst hx; simp
    | v6 a =>
      simp only [Addr.as4] at hx
      split at hx
      · simp only [GoRes.ok.injEq] at hx; subst hx; simp
      · simp at hx
  cases p with
  | serialNotify v s n =>
    simp only [encode, GoRes.ok.injEq] at h
    exact split4 v pduSerialNotify s 12 (w32 n) (by simp [← h]) (by simp)
  | serialQuery v s n =>
    simp only [encode, GoRes.ok.injEq] at h
    exact split4 v pduSerialQuery s 12 (w32 n) (by simp [← h]) (by simp)
  | resetQuery v =>
    simp only [encode, GoRes.ok.injEq] at h
    exact split4 v pduResetQuery 0 8 [] (by simp [← h]) (by simp)
  | cacheResponse v s =>
    simp only [encode, GoRes.ok.injEq] at h
    exact split4 v pduCacheResponse s 8 [] (by simp [← h]) (by simp)
  | ipv4Prefix v f p m a =>
    simp only [encode, GoRes.bind_eq_ok] at h
    obtain ⟨x, hx, h⟩ := h
    have hl := as4len _ _ hx
    simp only [GoRes.pure_eq, GoRes.ok.injEq] at h
    exact split4 v pduIPv4Prefix 0 20 (w8 f ++ wbits p ++ w8 m ++ w8 0 ++ x ++ w32 a) (by simp [← h]) (by simp [hl])
  | ipv6Prefix v f p m a =>
    simp only [encode, GoRes.ok.injEq] at h
    exact split4 v pduIPv6Prefix 0 32 (w8 f ++ wbits p ++ w8 m ++ w8 0 ++ p.ip.as16 ++ w32 a) (by simp [← h]) (by simp [as16_length])
  | endOfData v s n r t e =>
    simp only [encode] at h
    split at h
    · simp only [GoRes.ok.injEq] at h
      exact split4 v pduEndOfData s 12 (w32 n) (by simp [← h]) (by simp)
    · simp only [GoRes.ok.injEq] at h
      exact split4 v pduEndOfData s 24 (w32 n ++ w32 r ++ w32 t ++ w32 e) (by simp [← h]) (by simp)
  | cacheReset v =>
    simp only [encode, GoRes.ok.injEq] at h
    exact split4 v pduCacheReset 0 8 [] (by simp [← h]) (by simp)
  | routerKey v f ski a spki =>
    simp only [encode] at h
    split at h
    · simp only [GoRes.ok.injEq] at h; exact absurd h.symm hne
    · rename_i hski
      simp only [GoRes.ok.injEq] at h
      subst h
      have := key (w8 v ++ w8 pduRouterKey ++ w8 f ++ w8 0) (32 + spki.length) (ski ++ w32 a ++ spki) (by simp)
        (by simp; omega) (by simp at h32; omega)
      simpa using this
  | errorReport v c cp msg =>
    simp only [encode, GoRes.ok.injEq] at h
    by_cases hm : msg = []
    · subst hm
      exact split4 v pduErrorReport c (12 + cp.length + 4) (wlen cp.length ++ cp ++ wlen 0) (by simp [← h]) (by simp; omega)
    · simp only [hm, ne_eq, not_false_eq_true, if_true] at h
      exact split4 v pduErrorReport c (12 + cp.length + 4 + msg.length + 1) (wlen cp.length ++ cp ++ wlen (msg.length + 1) ++ msg ++ w8 0)
        (by simp [← h]) (by simp; omega)

/-- C04: the only PDUs for which nothing is emitted are Router Keys whose identifier is not 20 bytes long. -/
theorem C04_nothing_emitted_iff (p : Pdu) :
    encode p = .ok [] ↔ ∃ v f ski a spki, p = .routerKey v f ski a spki ∧ ski.length ≠ 20 := by
  cases p with
  | routerKey v f ski a spki =>
    by_cases h : ski.length = 20
    · simp [encode, h, w8]
    · simp only [encode, h, ne_eq, not_false_eq_true, if_true, true_iff]
      exact ⟨v, f, ski, a, spki, rfl, h⟩
  | ipv4Prefix v f p m a =>
    cases hx : p.ip.as4 <;> simp [encode, hx, w8]
  | endOfData v s n r t e =>
    simp only [encode]
    split <;> simp [w8]
  | _ => simp [encode, w8]

/-- A Router Key with a 3-byte identifier is silently not sent; one with a 20-byte identifier has length 36. -/
example : encode (.routerKey 1 1 [1, 2, 3] 65001 [1, 2, 3, 4]) = .ok [] := by decide
example : ∃ b, encode (.routerKey 1 1 (List.replicate 20 7) 65001 [1, 2, 3, 4]) = .ok b ∧ field b 4 4 = 36 ∧ b.length = 36 :=
  ⟨_, rfl, by decide⟩

/-! ## C05 -/

/-- Reading a stream to its end with repeated `Decode` (the loop of lib/client.go:110-129 without the handler):
the PDUs in order, or `none` when some `Decode` fails before the end of the stream. -/
inductive Stream : Bytes → List Pdu → Prop where
  | eof : Stream [] []
  | step {s rest : Bytes} {p : Pdu} {ps : List Pdu} : decode s = .ok (p, rest) → Stream rest ps → Stream s (p :: ps)

/-- C05: the concatenated encodings of any sequence of representable PDUs are read back as that sequence. -/
theorem C05_stream (ps : List Pdu) (hps : ∀ p ∈ ps, Representable p) :
    ∃ bs : List Bytes, ps.map encode = bs.map GoRes.ok ∧ Stream bs.flatten (ps.map received) := by
  induction ps with
  | nil => exact ⟨[], rfl, Stream.eof⟩
  | cons p ps ih =>
    obtain ⟨bs, h1, h2⟩ := ih (fun q hq => hps q (List.mem_cons_of_mem _ hq))
    obtain ⟨b, hb, _⟩ := C02_decode_encode p (hps p List.mem_cons_self) []
    obtain ⟨b', hb', hd⟩ := C02_decode_encode p (hps p List.mem_cons_self) bs.flatten
    rw [hb] at hb'
    cases hb'
    refine ⟨b :: bs, by simp [hb, h1], ?_⟩
    simp only [List.flatten_cons, List.map_cons]
    exact Stream.step hd h2

/-- C05: a stream is read in one way only. -/
theorem C05_stream_unique {s : Bytes} {ps qs : List Pdu} (h1 : Stream s ps) (h2 : Stream s qs) : ps = qs := by
  induction h1 generalizing qs with
  | eof =>
    cases h2 with
    | eof => rfl
    | step h _ => rw [decode_eq] at h; simp at h
  | step h _ ih =>
    cases h2 with
    | eof => rw [decode_eq] at h; simp at h
    | step h' hr =>
      rw [h] at h'
      simp only [GoRes.ok.injEq, Prod.mk.injEq] at h'
      obtain ⟨rfl, rfl⟩ := h'
      rw [ih hr]

example : Stream [1, 3, 0, 7, 0, 0, 0, 8, 1, 8, 0, 0, 0, 0, 0, 8] [.cacheResponse 1 7, .cacheReset 1] :=
  .step (rest := [1, 8, 0, 0, 0, 0, 0, 8]) (by decide) (.step (rest := []) (by decide) .eof)

/-! ## C06 -/

/-- C06: a successful decode consumes exactly the declared number of bytes, which is between 8 and 262168. -/
theorem C06_consumes_declared_length (s rest : Bytes) (p : Pdu) (h : decode s = .ok (p, rest)) :
    8 ≤ field s 4 4 ∧ field s 4 4 ≤ 262168 ∧ field s 4 4 ≤ s.length ∧ rest = s.drop (field s 4 4) := by
  rw [decode_eq] at h
  split at h; · simp at h
  split at h; · simp at h
  split at h; · simp at h
  split at h; · simp at h
  rename_i h1 h2 h3 h4
  rw [GoRes.bind_eq_ok] at h
  obtain ⟨q, _, h⟩ := h
  simp only [GoRes.pure_eq, GoRes.ok.injEq, Prod.mk.injEq] at h
  exact ⟨by omega, Nat.not_lt.mp h3, by omega, h.2.symm⟩

/-- C06: bad declared lengths are rejected on the header alone: whatever follows, the result is an error. -/
theorem C06_bad_length_rejected (hdr : Bytes) (hl : hdr.length = 8) (hb : field hdr 4 4 < 8 ∨ 262168 < field hdr 4 4)
    (body : Bytes) : decode (hdr ++ body) = .err := by
  have hf : field (hdr ++ body) 4 4 = field hdr 4 4 := by
    simp only [field_eq]
    rw [List.drop_append_of_le_length (by omega), List.take_append_of_le_length (by simp; omega)]
  rw [decode_eq, hf]
  rw [if_neg (by simp; omega)]
  rcases hb with hb | hb
  · rw [if_pos hb]
  · rw [if_neg (by omega), if_pos (show field hdr 4 4 > messageMaxSize from hb)]

/-- C06: fewer bytes than declared (or than a header) is an error. -/
theorem C06_truncated_rejected (s : Bytes) (h : s.length < 8 ∨ s.length < field s 4 4) : decode s = .err := by
  rw [decode_eq]
  split; · rfl
  split; · rfl
  split; · rfl
  rw [if_pos (by omega)]

example : decode [1, 2, 0, 0, 0xff, 0xff, 0xff, 0xff, 1, 2, 3] = .err := by decide
example : decode [1, 2, 0, 0, 0, 0, 0, 8, 1, 2, 3] = .ok (.resetQuery 1, [1, 2, 3]) := by decide

/-! ## C07 -/

/-- C07: only known type codes with an admissible body length (and inner lengths of Error Reports that fit) are accepted, and the PDU reports the header's version and type. -/
theorem C07_accepted_only_if (s rest : Bytes) (p : Pdu) (h : decode s = .ok (p, rest)) :
    BodyLength (field s 1 1) (field s 4 4 - 8) ∧ p.getVersion.toNat = field s 0 1 ∧ p.getType.toNat = field s 1 1 ∧
    (field s 1 1 = 10 → ErrorLengths (blob s 8 (field s 4 4 - 8))) := by
  obtain ⟨h8, hmax, hlen, -⟩ := C06_consumes_declared_length s rest p h
  rw [decode_eq, if_neg (by omega), if_neg (by omega), if_neg (show ¬ field s 4 4 > messageMaxSize from Nat.not_lt.mpr hmax), if_neg (by omega), GoRes.bind_eq_ok] at h
  obtain ⟨q, hq, h⟩ := h
  simp only [GoRes.pure_eq, GoRes.ok.injEq, Prod.mk.injEq] at h
  obtain ⟨rfl, -⟩ := h
  have hbl : (blob s 8 (field s 4 4 - 8)).length = field s 4 4 - 8 := by simp [blob]; omega
  have hv := field_lt s 0 1
  have ht := field_lt s 1 1
  have hv8 : (BitVec.ofNat 8 (field s 0 1)).toNat = field s 0 1 := by simp only [BitVec.toNat_ofNat]; omega
  have htn : ∀ k : Nat, k < 256 → BitVec.ofNat 8 (field s 1 1) = BitVec.ofNat 8 k → field s 1 1 = k := by
    intro k hk hkk
    have := congrArg BitVec.toNat hkk
    simp only [BitVec.toNat_ofNat] at this
    omega
  rcases decodeBody_cases (BitVec.ofNat 8 (field s 0 1)) (BitVec.ofNat 8 (field s 1 1)) (BitVec.ofNat 16 (field s 2 2))
    (blob s 8 (field s 4 4 - 8)) (by omega) with c | c | c | c | c | c | c | c | c | c | c
  all_goals (rw [c.2] at hq)
  case inr.inr.inr.inr.inr.inr.inr.inr.inr.inr => simp at hq
  case inl =>
    have ht := htn 0 (by decide) c.1
    split at hq <;> simp only [GoRes.ok.injEq, reduceCtorEq] at hq
    subst hq
    refine ⟨by unfold BodyLength; omega, hv8, by rw [ht]; rfl, fun h10 => absurd h10 (by omega)⟩
  case inr.inl =>
    have ht := htn 1 (by decide) c.1
    split at hq <;> simp only [GoRes.ok.injEq, reduceCtorEq] at hq
    subst hq
    refine ⟨by unfold BodyLength; omega, hv8, by rw [ht]; rfl, fun h10 => absurd h10 (by omega)⟩
  case inr.inr.inl =>
    have ht := htn 2 (by decide) c.1
    split at hq <;> simp only [GoRes.ok.injEq, reduceCtorEq] at hq
    subst hq
    refine ⟨by unfold BodyLength; omega, hv8, by rw [ht]; rfl, fun h10 => absurd h10 (by omega)⟩
  case inr.inr.inr.inl =>
    have ht := htn 3 (by decide) c.1
    split at hq <;> simp only [GoRes.ok.injEq, reduceCtorEq] at hq
    subst hq
    refine ⟨by unfold BodyLength; omega, hv8, by rw [ht]; rfl, fun h10 => absurd h10 (by omega)⟩
  case inr.inr.inr.inr.inl =>
    have ht := htn 4 (by decide) c.1
    split at hq <;> simp only [GoRes.ok.injEq, reduceCtorEq] at hq
    subst hq
    refine ⟨by unfold BodyLength; omega, hv8, by rw [ht]; rfl, fun h10 => absurd h10 (by omega)⟩
  case inr.inr.inr.inr.inr.inl =>
    have ht := htn 6 (by decide) c.1
    split at hq <;> simp only [GoRes.ok.injEq, reduceCtorEq] at hq
    subst hq
    refine ⟨by unfold BodyLength; omega, hv8, by rw [ht]; rfl, fun h10 => absurd h10 (by omega)⟩
  case inr.inr.inr.inr.inr.inr.inl =>
    have ht := htn 7 (by decide) c.1
    split at hq
    · simp only [GoRes.ok.injEq] at hq
      subst hq
      refine ⟨by unfold BodyLength; omega, hv8, by rw [ht]; rfl, fun h10 => absurd h10 (by omega)⟩
    · split at hq <;> simp only [GoRes.ok.injEq, reduceCtorEq] at hq
      subst hq
      refine ⟨by unfold BodyLength; omega, hv8, by rw [ht]; rfl, fun h10 => absurd h10 (by omega)⟩
  case inr.inr.inr.inr.inr.inr.inr.inl =>
    have ht := htn 8 (by decide) c.1
    split at hq <;> simp only [GoRes.ok.injEq, reduceCtorEq] at hq
    subst hq
    refine ⟨by unfold BodyLength; omega, hv8, by rw [ht]; rfl, fun h10 => absurd h10 (by omega)⟩
  case inr.inr.inr.inr.inr.inr.inr.inr.inl =>
    have ht := htn 9 (by decide) c.1
    split at hq <;> simp only [GoRes.ok.injEq, reduceCtorEq] at hq
    subst hq
    refine ⟨by unfold BodyLength; omega, hv8, by rw [ht]; rfl, fun h10 => absurd h10 (by omega)⟩
  case inr.inr.inr.inr.inr.inr.inr.inr.inr.inl =>
    have ht := htn 10 (by decide) c.1
    split at hq <;> simp only [GoRes.ok.injEq, reduceCtorEq] at hq
    rename_i hc
    subst hq
    refine ⟨by unfold BodyLength; omega, hv8, by rw [ht]; rfl, fun _ => hc.2⟩

/-- C07: conversely, a complete PDU of a known type with an admissible body length (and, for Error Reports, inner lengths that fit) is accepted. -/
theorem C07_accepted_if (s : Bytes) (h8 : 8 ≤ s.length) (hl : 8 ≤ field s 4 4 ∧ field s 4 4 ≤ 262168 ∧ field s 4 4 ≤ s.length)
    (hb : BodyLength (field s 1 1) (field s 4 4 - 8))
    (he : field s 1 1 = 10 → ErrorLengths (blob s 8 (field s 4 4 - 8))) :
    ∃ p, decode s = .ok (p, s.drop (field s 4 4)) := by
  rw [decode_eq, if_neg (by omega), if_neg (by omega), if_neg (show ¬ field s 4 4 > messageMaxSize from Nat.not_lt.mpr hl.2.1), if_neg (by omega)]
  have hbl : (blob s 8 (field s 4 4 - 8)).length = field s 4 4 - 8 := by simp [blob]; omega
  have ht := field_lt s 1 1
  suffices hd : ∃ q, decodeBody (BitVec.ofNat 8 (field s 0 1)) (BitVec.ofNat 8 (field s 1 1)) (BitVec.ofNat 16 (field s 2 2))
      (blob s 8 (field s 4 4 - 8)) = .ok q by
    obtain ⟨q, hq⟩ := hd
    exact ⟨q, by rw [hq]; rfl⟩
  have htn : ∀ k : Nat, k < 256 → BitVec.ofNat 8 (field s 1 1) = BitVec.ofNat 8 k → field s 1 1 = k := by
    intro k hk hkk
    have := congrArg BitVec.toNat hkk
    simp only [BitVec.toNat_ofNat] at this
    omega
  have hnt : ∀ k : Nat, BitVec.ofNat 8 (field s 1 1) ≠ BitVec.ofNat 8 k → field s 1 1 ≠ k := by
    intro k hkk h; rw [h] at hkk; exact hkk rfl
  unfold BodyLength at hb
  rcases decodeBody_cases (BitVec.ofNat 8 (field s 0 1)) (BitVec.ofNat 8 (field s 1 1)) (BitVec.ofNat 16 (field s 2 2))
    (blob s 8 (field s 4 4 - 8)) (by omega) with c | c | c | c | c | c | c | c | c | c | c
  · have := htn 0 (by decide) c.1
    rw [c.2, if_pos (by omega)]; exact ⟨_, rfl⟩
  · have := htn 1 (by decide) c.1
    rw [c.2, if_pos (by omega)]; exact ⟨_, rfl⟩
  · have := htn 2 (by decide) c.1
    rw [c.2, if_pos (by omega)]; exact ⟨_, rfl⟩
  · have := htn 3 (by decide) c.1
    rw [c.2, if_pos (by omega)]; exact ⟨_, rfl⟩
  · have := htn 4 (by decide) c.1
    rw [c.2, if_pos (by omega)]; exact ⟨_, rfl⟩
  · have := htn 6 (by decide) c.1
    rw [c.2, if_pos (by omega)]; exact ⟨_, rfl⟩
  · have := htn 7 (by decide) c.1
    rw [c.2]
    by_cases h4 : (blob s 8 (field s 4 4 - 8)).length = 4
    · rw [if_pos h4]; exact ⟨_, rfl⟩
    · rw [if_neg h4, if_pos (by omega)]; exact ⟨_, rfl⟩
  · have := htn 8 (by decide) c.1
    rw [c.2, if_pos (by omega)]; exact ⟨_, rfl⟩
  · have := htn 9 (by decide) c.1
    rw [c.2, if_pos (by omega)]; exact ⟨_, rfl⟩
  · have := htn 10 (by decide) c.1
    obtain ⟨e1, e2⟩ := he this
    rw [c.2, if_pos ⟨by omega, e1, e2⟩]; exact ⟨_, rfl⟩
  · obtain ⟨n0, n1, n2, n3, n4, n6, n7, n8, n9, n10⟩ := c.1
    have := hnt 0 n0; have := hnt 1 n1; have := hnt 2 n2; have := hnt 3 n3; have := hnt 4 n4
    have := hnt 6 n6; have := hnt 7 n7; have := hnt 8 n8; have := hnt 9 n9; have := hnt 10 n10
    omega

example : decode [1, 5, 0, 0, 0, 0, 0, 8] = .err := by decide
example : BodyLength 9 28 := by unfold BodyLength; omega

end StayRTR
