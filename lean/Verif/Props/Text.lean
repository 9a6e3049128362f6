import Verif.Proofs.ParseExact
import Verif.Proofs.Process

/-!
# Texts of prefixes and key identifiers: C101, C102
-/

namespace StayRTR
open Spec

/-! ## C101: prefixes -/

/-- The prefix field of a cache entry is read as `p` exactly if it is a text of `p`; the field of a filter likewise. -/
theorem C101_exact (v : VRPJson) (p : Prefix) : v.getPrefix2 = some p ↔ PrefixText v.pfx p := by rw [getPrefix2_eq, prefixText_iff]

/-- A text that is not one of any prefix stands for the zero prefix in a filter, any other for its prefix. -/
theorem C101_filter (f : PrefixFilter) :
    (∀ p, PrefixText f.pfx p → Slurm.filterPrefix f = p) ∧ ((∀ p, ¬ PrefixText f.pfx p) → Slurm.filterPrefix f = Prefix.invalid) := by
  constructor
  · intro p hp
    rw [← prefixText_iff] at hp
    simp [Slurm.filterPrefix, hp]
  · intro h
    rw [← no_prefixText] at h
    simp [Slurm.filterPrefix, h]

/-- The length of an asserted prefix is read as `n` exactly if the text is an address, a slash, and digits for `n` in range: leading zeros are allowed here. -/
theorem C101_assertion (a : PrefixAssertion) (n : Nat) : parseCIDR a.pfx = some n ↔ CidrText a.pfx n := cidrText_iff _ _

/-- No text stands for two prefixes. -/
theorem C101_unambiguous {s : Str} {p q : Prefix} (hp : PrefixText s p) (hq : PrefixText s q) : p = q := by
  rw [← prefixText_iff] at hp hq
  rw [hp] at hq
  exact Option.some.inj hq

theorem decStr_snoc {n d : Nat} (hn : 0 < n) (hd : d < 10) : decStr (10 * n + d) = decStr n ++ [Nat.digitChar d] := by
  have ext : ∀ (f n : Nat), n ≤ f → radixAux 10 f n = radixAux 10 n n := by
    intro f
    induction f using Nat.strongRecOn with
    | _ f ih =>
      intro n hn
      cases f with
      | zero => rw [show n = 0 by omega]
      | succ f =>
        cases n with
        | zero => simp [radixAux]
        | succ n =>
          simp only [radixAux]
          split
          · rfl
          · rw [ih f (by omega) _ (by omega), ih n (by omega) _ (by omega)]
  unfold decStr
  rw [show 10 * n + d = (10 * n + d - 1) + 1 by omega]
  simp only [radixAux]
  rw [show 10 * n + d - 1 + 1 = 10 * n + d by omega]
  rw [if_neg (by omega), show (10 * n + d) / 10 = n by omega, show (10 * n + d) % 10 = d by omega, ext _ _ (by omega)]

/-- A numeral is the usual one. -/
theorem numeral_decStr {s : Str} {n : Nat} (h : Numeral s n) : s = decStr n := by
  obtain ⟨h1, h2⟩ := h
  have dig : ∀ {c d}, digit c = some d → d < 10 ∧ c = Nat.digitChar d := by
    intro c d h
    have hc : c ∈ ['0', '1', '2', '3', '4', '5', '6', '7', '8', '9'] := by
      by_contra hn
      unfold digit at h
      rw [List.idxOf?_eq_none_iff.mpr hn] at h
      cases h
    have : ∀ c ∈ ['0', '1', '2', '3', '4', '5', '6', '7', '8', '9'], ∀ d : Fin 10, digit c = some d.val → c = Nat.digitChar d.val := by decide
    have hl : ∀ c ∈ ['0', '1', '2', '3', '4', '5', '6', '7', '8', '9'], (digit c).any (fun d => d < 10) = true := by decide
    have hd := hl c hc
    rw [h] at hd
    have hd : d < 10 := by simpa using hd
    exact ⟨hd, this c hc ⟨d, hd⟩ h⟩
  induction h1 with
  | one h =>
    obtain ⟨hd, rfl⟩ := dig h
    rename_i d
    unfold decStr
    cases d with
    | zero => rfl
    | succ d => simp only [radixAux]; rw [if_pos hd]
  | @snoc s n c d hs hc ih =>
    obtain ⟨hd, rfl⟩ := dig hc
    have hne : s ≠ [] := (fun h => by cases hs <;> simp at h)
    have h0 : s.head? ≠ some '0' := by
      intro h0
      have := h2 (by rw [List.head?_append, h0]; rfl)
      cases s with
      | nil => exact hne rfl
      | cons a s => simp at this
    have ih := ih (fun h => absurd h h0)
    have hn : 0 < n := by
      rcases Nat.eq_zero_or_pos n with rfl | h
      · rw [ih] at h0; exact absurd rfl h0
      · exact h
    rw [decStr_snoc hn hd, ← ih]

theorem string4_ofNat {n1 n2 n3 n4 m : Nat} (b1 : n1 ≤ 255) (b2 : n2 ≤ 255) (b3 : n3 ≤ 255) (b4 : n4 ≤ 255) (e : m = n1 * 2 ^ 24 + n2 * 2 ^ 16 + n3 * 2 ^ 8 + n4) :
    (Addr.v4 (BitVec.ofNat 32 m)).toStr = decStr n1 ++ '.' :: (decStr n2 ++ '.' :: (decStr n3 ++ '.' :: decStr n4)) := by
  simp only [Addr.toStr, Addr.string4, BitVec.toNat_ofNat, joinWith]
  rw [show m % 2 ^ 32 = m by omega, show m / 2 ^ 24 = n1 by omega, show m / 2 ^ 16 % 256 = n2 by omega, show m / 2 ^ 8 % 256 = n3 by omega, show m % 256 = n4 by omega]

/-- An IPv4 prefix has only one text: the one printed. -/
theorem C101_v4_one {s : Str} {p : Prefix} {a : BitVec 32} (hp : PrefixText s p) (ha : p.ip = .v4 a) : s = p.toStr := by
  have hval := valid_of_parse ((prefixText_iff ..).mpr hp)
  obtain ⟨t, l, n, rfl, ht, hl, hn, hb⟩ := hp
  have hv : p.isValid = true := by unfold Prefix.isValid; simp [hb]
  unfold Prefix.toStr
  rw [if_pos hv, ha, hb, Nat.add_sub_cancel, numeral_decStr hl]
  congr 1
  rw [ha] at ht
  cases ht with
  | v4 h =>
    obtain ⟨s1, s2, s3, s4, n1, n2, n3, n4, rfl, h1, h2, h3, h4, b1, b2, b3, b4, rfl⟩ := h
    rw [numeral_decStr h1, numeral_decStr h2, numeral_decStr h3, numeral_decStr h4]
    exact (string4_ofNat b1 b2 b3 b4 rfl).symm

/-- Printing a prefix gives a text of it. -/
theorem C101_printed {p : Prefix} (h : p.Valid) : PrefixText p.toStr p := (prefixText_iff ..).mp (parsePrefix_toStr h)

/-- Texts of one IPv6 prefix; an IPv4 prefix has one only. A group too many, `::` for nothing, a length out of range, leading zeros, a bare address: no texts. -/
example :
    (∀ s ∈ ["2001:db8::/32", "2001:0DB8:0:0::/32", "2001:db8:0:0:0:0:0:0/32", "2001:db8::0.0.0.0/32"], PrefixText s.toList ⟨.v6 0x20010db8000000000000000000000000, 33⟩) ∧
    PrefixText "10.0.0.0/8".toList ⟨.v4 0x0a000000, 9⟩ ∧
    ∀ s ∈ ["1:2:3:4:5:6:7:8:9/32", "1:2:3:4::5:6:7:8/32", "10.0.0.0/33", "10.0.0.256/8", "010.0.0.0/8", "10.0.0.0/08", "10.0.0.0", "10/8", "1::2::3/32", "::12345/32", "fe80::1%eth0/64", ":/0"],
      ∀ p, ¬ PrefixText s.toList p := by
  refine ⟨?_, ?_, ?_⟩
  · simp only [← prefixText_iff]; decide
  · rw [← prefixText_iff]; decide
  · simp only [← no_prefixText]; decide

/-- Where the two parsers differ. -/
example : CidrText "10.0.0.0/008".toList 8 ∧ ∀ p, ¬ PrefixText "10.0.0.0/008".toList p := by
  rw [← cidrText_iff, ← no_prefixText]
  decide

/-! ## C102: key identifiers -/

/-- The key identifier of a cache entry is read as `b` without error exactly if it is a text of `b` in hexadecimal. -/
theorem C102_exact (k : BgpSecKeyJson) (b : Bytes) : hexDecode k.ski = (b, true) ↔ HexText k.ski b := hexText_iff _ _

theorem hexValueOf_lower (c : Char) (n : Nat) : hexValueOf c = some n ↔ n < 16 ∧ c.toLower = Nat.digitChar n := by
  by_cases h : c.toNat < 128
  · have key : ∀ m : Fin 128, ∀ n : Fin 16, hexValueOf (Char.ofNat m.val) = some n.val ↔ (Char.ofNat m.val).toLower = Nat.digitChar n.val := by decide +kernel
    have bnd : ∀ m : Fin 128, (hexValueOf (Char.ofNat m.val)).all (fun n => n < 16) = true := by decide +kernel
    have hc : Char.ofNat c.toNat = c := Char.ofNat_toNat c
    have bnd := bnd ⟨c.toNat, h⟩
    simp only [hc] at bnd
    constructor
    · intro hv
      rw [hv] at bnd
      have hn : n < 16 := by simpa using bnd
      refine ⟨hn, ?_⟩
      have := (key ⟨c.toNat, h⟩ ⟨n, hn⟩).mp (by simp only [hc]; exact hv)
      simpa only [hc] using this
    · rintro ⟨hn, hl⟩
      have := (key ⟨c.toNat, h⟩ ⟨n, hn⟩).mpr (by simp only [hc]; exact hl)
      simpa only [hc] using this
  · have h1 : hexValueOf c = none := by
      rw [hexValueOf_eq]
      unfold hexDigit
      have : 'a'.toNat = 97 ∧ 'f'.toNat = 102 ∧ '0'.toNat = 48 ∧ '9'.toNat = 57 ∧ 'A'.toNat = 65 ∧ 'F'.toNat = 70 := by decide
      rw [if_neg (by omega), if_neg (by omega), if_neg (by omega)]
    have h2 : c.toLower = c := by
      unfold Char.toLower
      split
      · rename_i h'
        exfalso
        apply h
        have := h'.2
        have : c.toNat ≤ 90 := this
        omega
      · rfl
    rw [h1, h2]
    constructor
    · intro h'; cases h'
    · rintro ⟨hn, rfl⟩
      exfalso
      apply h
      have : ∀ n : Fin 16, (Nat.digitChar n.val).toNat < 128 := by decide
      exact this ⟨n, hn⟩

/-- Put in lower case, the texts of `b` are the one printed for `b`. -/
theorem C102_spelling (s : Str) (b : Bytes) : HexText s b ↔ s.map Char.toLower = hexBytes b := by
  constructor
  · intro h
    induction h with
    | nil => rfl
    | @cons x y l m n r hx hy _ ih =>
      rw [hexValueOf_lower] at hx hy
      simp only [List.map_cons, hexBytes, List.flatMap_cons, hexByte, List.cons_append, List.nil_append]
      rw [hx.2, hy.2, BitVec.toNat_ofNat, show (16 * m + n) % 2 ^ 8 / 16 = m by omega, show (16 * m + n) % 2 ^ 8 % 16 = n by omega]
      congr 2
  · intro h
    induction b generalizing s with
    | nil =>
      simp [hexBytes] at h
      subst h
      exact .nil
    | cons x b ih =>
      simp only [hexBytes, List.flatMap_cons, hexByte, List.cons_append, List.nil_append] at h
      match s, h with
      | [c], h => simp at h
      | c :: d :: s, h =>
        simp only [List.map_cons, List.cons.injEq] at h
        have hx := x.isLt
        have h1 := (hexValueOf_lower c (x.toNat / 16)).mpr ⟨by omega, h.1⟩
        have h2 := (hexValueOf_lower d (x.toNat % 16)).mpr ⟨by omega, h.2.1⟩
        have := HexText.cons h1 h2 (ih s h.2.2)
        rwa [show 16 * (x.toNat / 16) + x.toNat % 16 = x.toNat by omega, BitVec.ofNat_toNat, BitVec.setWidth_eq] at this

/-- No text stands for two identifiers, and two digits make a byte. -/
theorem C102_unambiguous {s : Str} {b c : Bytes} (hb : HexText s b) (hc : HexText s c) : b = c ∧ s.length = 2 * b.length := by
  constructor
  · rw [← hexText_iff] at hb hc
    rw [hb] at hc
    exact (Prod.mk.inj hc).1
  · clear hc
    induction hb with
    | nil => rfl
    | cons _ _ _ ih => simp only [List.length_cons, ih]; omega

example : HexText "AbcD".toList [0xab, 0xcd] ∧ (∀ s ∈ ["abc", "0x12", "ab cd", "ag"], ∀ b, ¬ HexText s.toList b) := by
  refine ⟨(hexText_iff ..).mp (by decide), ?_⟩
  intro s hs b hb
  rw [← hexText_iff] at hb
  have : ∀ s ∈ ["abc", "0x12", "ab cd", "ag"], (hexDecode s.toList).2 = false := by decide
  have := this s hs
  rw [hb] at this
  cases this

end StayRTR
