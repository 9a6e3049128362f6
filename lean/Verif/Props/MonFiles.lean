import Verif.Props.MonFile
import Verif.Props.Text

/-!
# C151: rtrmon compares two files record by record
-/

namespace StayRTR

/-! ## What is asked -/

/-- A record of a cache file as rtrmon tells records apart: the key identifier as it is written. -/
inductive Spec.FileRec where
  | vrp (p : Prefix) (maxLen : U8) (asn : U32)
  | key (ski : Str) (asn : U32) (pubkey : Bytes)
  deriving DecidableEq, Repr

/-- The file has the record. -/
def Spec.InFile (wide : WideFloat) (vs : List VRPJson) (ks : List BgpSecKeyJson) : Spec.FileRec → Prop
  | .vrp p m a => ∃ v ∈ vs, PrefixText v.pfx p ∧ AsnReads wide v.asn a ∧ v.length = m
  | .key s a k => ∃ b ∈ ks, b.ski = s ∧ b.asn = a ∧ b.pubkey = k

/-- The record that an entry of `/diff.json` is about, by its own fields. -/
def Spec.About (e : MonEntry) : Spec.FileRec → Prop
  | .vrp p m a => e.bgpsec = none ∧ PrefixText e.pfx p ∧ e.length = m ∧ e.asn = a
  | .key s a k => ∃ b, e.bgpsec = some b ∧ b.ski = s ∧ b.asn = a ∧ b.pubkey = k

/-- The first list has exactly the records of the first file that the second does not have. -/
def Spec.ComparesRecords (wide : WideFloat) (vs : List VRPJson) (ks : List BgpSecKeyJson) (vs' : List VRPJson) (ks' : List BgpSecKeyJson) (d : MonMap) : Prop :=
  ∀ r, (∃ k e, d.get k = some e ∧ Spec.About e r) ↔ Spec.InFile wide vs ks r ∧ ¬ Spec.InFile wide vs' ks' r

/-- Neither a dash nor a slash in a key identifier. -/
def Spec.PlainKeys (ks : List BgpSecKeyJson) : Prop := ∀ b ∈ ks, '-' ∉ b.ski ∧ '/' ∉ b.ski

open Spec MonMap

/-! ## What is proved -/

/-- The name under which a record is kept. -/
def fileName : FileRec → Str
  | .vrp p m a => monVrpKey p m a
  | .key s a k => monBrkKey s a k

theorem mem_names_iff (wide : WideFloat) (vs : List VRPJson) (ks : List BgpSecKeyJson) (k : Str) : k ∈ names wide vs ks ↔ ∃ r, InFile wide vs ks r ∧ fileName r = k := by
  unfold names
  rw [List.mem_append, List.mem_filterMap, List.mem_map]
  constructor
  · rintro (⟨v, hv, h⟩ | ⟨b, hb, h⟩)
    · cases h1 : v.getASN2 wide with
      | none => rw [h1] at h; cases h
      | some asn =>
        cases h2 : v.getPrefix2 with
        | none => rw [h1, h2] at h; cases h
        | some p =>
          rw [h1, h2] at h
          rw [getPrefix2_eq] at h2
          exact ⟨.vrp p v.length asn, ⟨v, hv, (prefixText_iff ..).mp h2, (asnReads_iff ..).mp h1, rfl⟩, Option.some.inj h⟩
    · exact ⟨.key b.ski b.asn b.pubkey, ⟨b, hb, rfl, rfl, rfl⟩, h⟩
  · rintro ⟨r, h, rfl⟩
    cases r with
    | vrp p m a =>
      obtain ⟨v, hv, h1, h2, h3⟩ := h
      refine .inl ⟨v, hv, ?_⟩
      rw [(asnReads_iff ..).mpr h2, getPrefix2_eq, (prefixText_iff ..).mpr h1, h3]
      rfl
    | key s a k =>
      obtain ⟨b, hb, rfl, rfl, rfl⟩ := h
      exact .inr ⟨b, hb, rfl⟩

/-- Shown in the map of a file: the names of the file. -/
theorem shown_iff (wide : WideFloat) (grace t : Int) (vs : List VRPJson) (ks : List BgpSecKeyJson) (us : List (Int × Update)) (ho : ((t, Update.file vs ks) :: us).Pairwise fun a b => b.1 ≤ a.1) (k : Str) :
    (∃ e, (mapAfter wide grace ((t, .file vs ks) :: us)).get k = some e ∧ e.visible = true) ↔ k ∈ names wide vs ks := by
  have F := mapAfter_faithful wide grace ((t, Update.file vs ks) :: us) (sightings_order wide ho)
  have hver := F.verdict k
  simp only [sightings] at hver
  by_cases hk : k ∈ names wide vs ks
  · rw [verdict_mem hk] at hver
    refine ⟨fun _ => hk, fun _ => ?_⟩
    cases hg : (mapAfter wide grace ((t, Update.file vs ks) :: us)).get k with
    | none => rw [hg] at hver; cases hver
    | some e =>
      rw [hg] at hver
      simp only [Option.map_some, tells, Option.some.injEq, Prod.mk.injEq] at hver
      exact ⟨e, rfl, hver.1⟩
  · refine ⟨?_, fun h => absurd h hk⟩
    rintro ⟨e, he, hvis⟩
    rw [he] at hver
    simp only [Option.map_some, tells, hvis] at hver
    exact absurd (verdict_true.mp hver.symm).1 (by rw [since_not_mem hk]; simp)

/-- **C151.** For all files: the first list has exactly the names of the first file that are not names of the second, each once, under entries with these names. -/
theorem C151_names (wide : WideFloat) (grace t t' : Int) (vs vs' : List VRPJson) (ks ks' : List BgpSecKeyJson) (us us' : List (Int × Update))
    (ho : ((t, Update.file vs ks) :: us).Pairwise fun a b => b.1 ≤ a.1) (ho' : ((t', Update.file vs' ks') :: us').Pairwise fun a b => b.1 ≤ a.1) :
    let d := monDiff (mapAfter wide grace ((t, .file vs ks) :: us)) (mapAfter wide grace ((t', .file vs' ks') :: us'))
    (d.map (·.1)).Nodup ∧ (∀ k, Lists d k ↔ k ∈ names wide vs ks ∧ k ∉ names wide vs' ks') ∧ ∀ k e, d.get k = some e → entryName e = k := by
  intro d
  have F := mapAfter_faithful wide grace ((t, Update.file vs ks) :: us) (sightings_order wide ho)
  have hd := C60_exact (mapAfter wide grace ((t', .file vs' ks') :: us')) F.ok
  refine ⟨hd.1, fun k => ?_, fun k e h => F.named k e ((hd.2 k e).1 h).1⟩
  rw [← shown_iff wide grace t vs ks us ho, ← shown_iff wide grace t' vs' ks' us' ho']
  unfold Lists
  rw [Option.isSome_iff_exists]
  constructor
  · rintro ⟨e, h⟩
    obtain ⟨h1, h2, h3⟩ := (hd.2 k e).1 h
    exact ⟨⟨e, h1, h2⟩, fun ⟨e', he', hv⟩ => by rw [h3 e' he'] at hv; cases hv⟩
  · rintro ⟨⟨e, h1, h2⟩, h3⟩
    refine ⟨e, (hd.2 k e).2 ⟨h1, h2, fun e' he' => ?_⟩⟩
    cases hv : e'.visible with
    | false => rfl
    | true => exact absurd ⟨e', he', hv⟩ h3

/-- An entry of the map is that of a record of the file, if it is shown. -/
def Stated (wide : WideFloat) (vs : List VRPJson) (ks : List BgpSecKeyJson) (m : MonMap) : Prop :=
  ∀ k e, m.get k = some e → e.visible = true → ∃ r, InFile wide vs ks r ∧ fileName r = k ∧ About e r

theorem stated_put {wide : WideFloat} {vs : List VRPJson} {ks : List BgpSecKeyJson} {m : MonMap} (h : Stated wide vs ks m) {k : Str} {e : MonEntry} (he : e.visible = true → ∃ r, InFile wide vs ks r ∧ fileName r = k ∧ About e r) :
    Stated wide vs ks (m.put k e) := by
  intro k' e' hg hv
  rw [get_put] at hg
  split at hg
  · cases hg
    subst k'
    exact he hv
  · exact h k' e' hg hv

theorem stated_vrps (wide : WideFloat) (cur : MonMap) (now : Int) {vs : List VRPJson} {ks : List BgpSecKeyJson} (l : List VRPJson) (hl : ∀ v ∈ l, v ∈ vs) (m : MonMap) (h : Stated wide vs ks m) :
    Stated wide vs ks (l.foldl (monAddVrp wide cur now) m) := by
  induction l generalizing m with
  | nil => exact h
  | cons v l ih =>
    refine ih (fun x hx => hl x (List.mem_cons_of_mem _ hx)) _ ?_
    unfold monAddVrp
    cases h1 : v.getASN2 wide with
    | none => exact h
    | some asn =>
      cases h2 : v.getPrefix2 with
      | none => exact h
      | some p =>
        rw [getPrefix2_eq] at h2
        exact stated_put h fun _ => ⟨.vrp p v.length asn, ⟨v, hl v List.mem_cons_self, (prefixText_iff ..).mp h2, (asnReads_iff ..).mp h1, rfl⟩, rfl, rfl, C101_printed (valid_of_parse h2), rfl, rfl⟩

theorem stated_keys (wide : WideFloat) (cur : MonMap) (now : Int) {vs : List VRPJson} {ks : List BgpSecKeyJson} (l : List BgpSecKeyJson) (hl : ∀ b ∈ l, b ∈ ks) (m : MonMap) (h : Stated wide vs ks m) :
    Stated wide vs ks (l.foldl (monAddKey cur now) m) := by
  induction l generalizing m with
  | nil => exact h
  | cons b l ih =>
    refine ih (fun x hx => hl x (List.mem_cons_of_mem _ hx)) _ ?_
    exact stated_put h fun _ => ⟨.key b.ski b.asn b.pubkey, ⟨b, hl b List.mem_cons_self, rfl, rfl, rfl⟩, rfl, b, rfl, rfl, rfl, rfl⟩

theorem stated_grace (wide : WideFloat) (ends : Int) {vs : List VRPJson} {ks : List BgpSecKeyJson} (l : List (Str × MonEntry)) (m : MonMap × Nat) (h : Stated wide vs ks m.1) :
    Stated wide vs ks (l.foldl (monGrace ends) m).1 := by
  induction l generalizing m with
  | nil => exact h
  | cons x l ih =>
    refine ih _ ?_
    unfold monGrace
    split
    · exact stated_put h fun hv => by cases hv
    · exact h

theorem stated_map (wide : WideFloat) (grace t : Int) (vs : List VRPJson) (ks : List BgpSecKeyJson) (us : List (Int × Update)) : Stated wide vs ks (mapAfter wide grace ((t, .file vs ks) :: us)) :=
  stated_grace wide _ _ _ (stated_keys wide _ t ks (fun _ h => h) _ (stated_vrps wide _ t vs (fun _ h => h) _ fun _ _ h => by cases h))

theorem about_unique {e : MonEntry} {r r' : FileRec} (h : About e r) (h' : About e r') : r = r' := by
  cases r with
  | vrp p m a =>
    cases r' with
    | vrp p' m' a' =>
      obtain ⟨-, h1, rfl, rfl⟩ := h
      obtain ⟨-, h2, rfl, rfl⟩ := h'
      have := ((prefixText_iff ..).mpr h1).symm.trans ((prefixText_iff ..).mpr h2)
      cases this
      rfl
    | key s' a' k' =>
      obtain ⟨b, hb, -⟩ := h'
      rw [h.1] at hb
      cases hb
  | key s a k =>
    obtain ⟨b, hb, rfl, rfl, rfl⟩ := h
    cases r' with
    | vrp p' m' a' =>
      rw [h'.1] at hb
      cases hb
    | key s' a' k' =>
      obtain ⟨b', hb', rfl, rfl, rfl⟩ := h'
      rw [hb] at hb'
      cases hb'
      rfl

/-- **C151.** For all files: whatever is listed is a record of the first file that the second does not have. -/
theorem C151_listed (wide : WideFloat) (grace t t' : Int) (vs vs' : List VRPJson) (ks ks' : List BgpSecKeyJson) (us us' : List (Int × Update))
    (ho : ((t, Update.file vs ks) :: us).Pairwise fun a b => b.1 ≤ a.1) (ho' : ((t', Update.file vs' ks') :: us').Pairwise fun a b => b.1 ≤ a.1) {k : Str} {e : MonEntry}
    (he : (monDiff (mapAfter wide grace ((t, .file vs ks) :: us)) (mapAfter wide grace ((t', .file vs' ks') :: us'))).get k = some e) :
    ∃ r, About e r ∧ InFile wide vs ks r ∧ ¬ InFile wide vs' ks' r ∧ fileName r = k := by
  have F := mapAfter_faithful wide grace ((t, Update.file vs ks) :: us) (sightings_order wide ho)
  obtain ⟨h1, h2, -⟩ := ((C60_exact (mapAfter wide grace ((t', .file vs' ks') :: us')) F.ok).2 k e).1 he
  obtain ⟨r, hr, hk, ha⟩ := stated_map wide grace t vs ks us k e h1 h2
  refine ⟨r, ha, hr, fun h => ?_, hk⟩
  have hl : Lists (monDiff (mapAfter wide grace ((t, .file vs ks) :: us)) (mapAfter wide grace ((t', .file vs' ks') :: us'))) k := by unfold Lists; rw [he]; rfl
  exact ((C151_names wide grace t t' vs vs' ks ks' us us' ho ho').2.1 k |>.1 hl).2 ((mem_names_iff ..).2 ⟨r, h, hk⟩)

/-- The names of records of files with plain key identifiers are different. -/
theorem fileName_inj {wide : WideFloat} {vs vs' : List VRPJson} {ks ks' : List BgpSecKeyJson} (hp : PlainKeys ks) (hp' : PlainKeys ks') {r r' : FileRec} (hr : InFile wide vs ks r) (hr' : InFile wide vs' ks' r')
    (h : fileName r = fileName r') : r = r' := by
  have key : ∀ {p : Prefix} {m : U8} {a : U32} {b : BgpSecKeyJson}, p.Valid → '-' ∉ b.ski → '/' ∉ b.ski → monVrpKey p m a ≠ monBrkKey b.ski b.asn b.pubkey := by
    intro p m a b hv h1 h2 h
    obtain ⟨e, -⟩ := append_sep_inj (dash_not_prefix hv) h1 h
    have := Prefix.toStr_slash hv
    rw [e] at this
    exact h2 this
  cases r with
  | vrp p m a =>
    obtain ⟨v, -, h1, -, -⟩ := hr
    have hv := valid_of_parse ((prefixText_iff ..).mpr h1)
    cases r' with
    | vrp p' m' a' =>
      obtain ⟨v', -, h1', -, -⟩ := hr'
      have hv' := valid_of_parse ((prefixText_iff ..).mpr h1')
      have := recName_inj (r := .vrp p m a) (r' := .vrp p' m' a') ⟨hv.1, by simpa [Prefix.isValid] using hv.2⟩ ⟨hv'.1, by simpa [Prefix.isValid] using hv'.2⟩ h
      cases this
      rfl
    | key s' a' k' =>
      obtain ⟨b, hb, rfl, rfl, rfl⟩ := hr'
      exact absurd h (key hv (hp' b hb).1 (hp' b hb).2)
  | key s a k =>
    obtain ⟨b, hb, rfl, rfl, rfl⟩ := hr
    cases r' with
    | vrp p' m' a' =>
      obtain ⟨v', -, h1', -, -⟩ := hr'
      exact absurd h.symm (key (valid_of_parse ((prefixText_iff ..).mpr h1')) (hp b hb).1 (hp b hb).2)
    | key s' a' k' =>
      obtain ⟨b', hb', rfl, rfl, rfl⟩ := hr'
      obtain ⟨e1, e2⟩ := append_sep_inj (hp b hb).1 (hp' b' hb').1 h
      obtain ⟨e2, e3⟩ := append_sep_inj (not_mem_of_digits (decStr_digits _) dash_not_digit) (not_mem_of_digits (decStr_digits _) dash_not_digit) e2
      rw [e1, BitVec.eq_of_toNat_eq (decStr_inj e2), rawStr_inj e3]

/-- **C151** (partial: key identifiers without dashes and slashes, as in hexadecimal). The first list has exactly the records of the first file that the second does not have. -/
theorem C151_records_partial (wide : WideFloat) (grace t t' : Int) (vs vs' : List VRPJson) (ks ks' : List BgpSecKeyJson) (us us' : List (Int × Update))
    (ho : ((t, Update.file vs ks) :: us).Pairwise fun a b => b.1 ≤ a.1) (ho' : ((t', Update.file vs' ks') :: us').Pairwise fun a b => b.1 ≤ a.1) (hp : PlainKeys ks) (hp' : PlainKeys ks') :
    ComparesRecords wide vs ks vs' ks' (monDiff (mapAfter wide grace ((t, .file vs ks) :: us)) (mapAfter wide grace ((t', .file vs' ks') :: us'))) := by
  intro r
  constructor
  · rintro ⟨k, e, he, ha⟩
    obtain ⟨r0, ha0, h1, h2, -⟩ := C151_listed wide grace t t' vs vs' ks ks' us us' ho ho' he
    rw [about_unique ha ha0]
    exact ⟨h1, h2⟩
  · rintro ⟨h1, h2⟩
    have hl := ((C151_names wide grace t t' vs vs' ks ks' us us' ho ho').2.1 (fileName r)).2
      ⟨(mem_names_iff ..).2 ⟨r, h1, rfl⟩, fun h => by
        obtain ⟨r', h3, h4⟩ := (mem_names_iff ..).1 h
        exact h2 (fileName_inj hp hp' h1 h3 h4.symm ▸ h3)⟩
    obtain ⟨e, he⟩ := Option.isSome_iff_exists.1 hl
    obtain ⟨r0, ha0, h3, -, h5⟩ := C151_listed wide grace t t' vs vs' ks ks' us us' ho ho' he
    exact ⟨_, e, he, fileName_inj hp hp h3 h1 h5 ▸ ha0⟩

/-- A VRP, and a router key entry with the same name: `10.0.0.0/8-8-65000`. -/
def exHiddenVrp : VRPJson := ⟨"10.0.0.0/8".toList, 8, .int 65000, [], none⟩

def exHidingKey : BgpSecKeyJson := ⟨8, none, [], [54, 53, 48, 48, 48], "10.0.0.0/8".toList⟩

/-- **C151.** The code does not have this property: a router key entry whose key identifier is the text of a prefix hides a VRP. One file has the VRP and the other only the entry: nothing is listed on either side. In the same file, the entry takes the place
of the VRP: then the VRP is not listed either if the other file is empty. -/
theorem C151_hidden_false :
    ¬ ComparesRecords (fun _ => 0) [exHiddenVrp] [] [] [exHidingKey] (monDiff (mapAfter (fun _ => 0) 3600 [(100, .file [exHiddenVrp] [])]) (mapAfter (fun _ => 0) 3600 [(100, .file [] [exHidingKey])])) ∧
    monDiff (mapAfter (fun _ => 0) 3600 [(100, .file [exHiddenVrp] [])]) (mapAfter (fun _ => 0) 3600 [(100, .file [] [exHidingKey])]) = [] ∧
    monDiff (mapAfter (fun _ => 0) 3600 [(100, .file [] [exHidingKey])]) (mapAfter (fun _ => 0) 3600 [(100, .file [exHiddenVrp] [])]) = [] ∧
    (monDiff (mapAfter (fun _ => 0) 3600 [(100, .file [exHiddenVrp] [exHidingKey])]) (mapAfter (fun _ => 0) 3600 [(100, .file [] [])])).map (fun x => (x.1, x.2.bgpsec)) = [("10.0.0.0/8-8-65000".toList, some exHidingKey)] := by
  have h : monDiff (mapAfter (fun _ => 0) 3600 [(100, .file [exHiddenVrp] [])]) (mapAfter (fun _ => 0) 3600 [(100, .file [] [exHidingKey])]) = [] := by decide +kernel
  refine ⟨fun hc => ?_, h, by decide +kernel, by decide +kernel⟩
  rw [h] at hc
  obtain ⟨k, e, he, -⟩ := (hc (.vrp ⟨.v4 0x0a000000, 9⟩ 8 65000)).2
    ⟨⟨exHiddenVrp, List.mem_cons_self, (prefixText_iff ..).mp (by decide +kernel), (asnReads_iff ..).mp (by decide +kernel), rfl⟩, fun ⟨v, hv, _⟩ => by cases hv⟩
  cases he

/-- Two files with keys: exactly what differs is listed. -/
example : PlainKeys exCheckedKeys ∧ (monDiff (mapAfter (fun _ => 0) 3600 [(200, .file exCheckedVrps exCheckedKeys), (100, .file [] [])]) (mapAfter (fun _ => 0) 3600 [(200, .file (exCheckedVrps.drop 2) []), (150, .file exCheckedVrps [])])).map (·.1) =
    ["10.0.0.0/8-24-1".toList, "0.0.0.0/0-24-1".toList, "ABCD-65001-XY".toList] := by
  constructor
  · unfold PlainKeys; decide +kernel
  · decide +kernel

end StayRTR
