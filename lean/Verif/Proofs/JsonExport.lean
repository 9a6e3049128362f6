import Verif.Proofs.JsonPrint
import Verif.Props.Json
import Verif.Props.Report
import Verif.Props.Dump
import Verif.Props.Slurm

/-!
# What is written to files, and what can be written (for C108, C109)
-/

namespace StayRTR
open Spec

/-! ## Reading again does not change what is asked for -/

theorem asnReads_reread (wide : WideFloat) (a : AsnJson) (n : U32) (ha : ∀ i, a ≠ .int i) : AsnReads wide (rereadAsn a) n ↔ AsnReads wide a n := by
  cases a with
  | uint32 m =>
    have hm := m.isLt
    simp only [rereadAsn, AsnReads, AsnIs]
    constructor
    · intro ⟨h, _⟩
      have := h ⟨by omega, by omega⟩
      exact BitVec.eq_of_toNat_eq (by omega)
    · rintro rfl
      exact ⟨fun _ => rfl, fun h => absurd ⟨by omega, by omega⟩ h⟩
  | int i => exact absurd rfl (ha i)
  | _ => exact Iff.rfl

theorem wanted_reread (wide : WideFloat) (now : Int) (l : RPKIList) (ha : ∀ v ∈ l.roas.getD [], ∀ i, v.asn ≠ .int i) (r : Rec) :
    Wanted wide now ((rereadList l).roas.getD []) ((rereadList l).keys.getD []) r ↔ Wanted wide now (l.roas.getD []) (l.keys.getD []) r := by
  have hk : (rereadList l).keys.getD [] = l.keys.getD [] := by
    unfold rereadList
    simp only
    split
    · rename_i h; rw [h]; rfl
    · rfl
  have hv : (rereadList l).roas.getD [] = (l.roas.getD []).map fun v => { v with asn := rereadAsn v.asn } := by
    unfold rereadList
    cases l.roas <;> rfl
  rw [hk, hv]
  cases r with
  | brk a ski key => exact Iff.rfl
  | vrp p m a =>
    simp only [Wanted, List.mem_map]
    constructor
    · rintro ⟨_, ⟨v, hv, rfl⟩, h1, h2, h3⟩
      exact ⟨v, hv, h1, (asnReads_reread wide v.asn a (ha v hv)).1 h2, h3⟩
    · rintro ⟨v, hv, h1, h2, h3⟩
      exact ⟨_, ⟨v, hv, rfl⟩, h1, (asnReads_reread wide v.asn a (ha v hv)).2 h2, h3⟩

/-! ## What comes from a file can be written -/

/-- An AS number from a file or a local exception. -/
def ReadAsn (a : AsnJson) : Prop := WritableAsn a ∧ ∀ i, a ≠ .int i

/-- An entry from a file or a local exception. -/
def ReadVrp (v : VRPJson) : Prop := ReadAsn v.asn ∧ ∀ x, v.expires = some x → Fits64 x

/-- A key from a file or a local exception. -/
def ReadKey (k : BgpSecKeyJson) : Prop := ∀ x, k.expires = some x → Fits64 x

/-- Entries from a file and local exceptions. -/
def ReadList (l : RPKIList) : Prop := (∀ v ∈ l.roas.getD [], ReadVrp v) ∧ ∀ k ∈ l.keys.getD [], ReadKey k

theorem jsonField_inv {α : Type} {o : List (Str × Json)} {name : String} {dec : α → Json → Option α} {P : α → Prop} (hd : ∀ a j x, P a → dec a j = some x → P x) {old x : α} (h0 : P old)
    (h : jsonField o name dec old = some x) : P x := by
  unfold jsonField at h
  generalize (o.filter fun m => foldName m.1 == foldName name.toList) = l at h
  induction l generalizing old with
  | nil => cases h; exact h0
  | cons m l ih =>
    rw [List.foldlM_cons] at h
    cases hm : dec old m.2 with
    | none => simp [hm] at h
    | some y => simp only [hm] at h; exact ih (hd _ _ _ h0 hm) h

theorem decElems_inv {α : Type} {zero : α} {dec : α → Json → Option α} {P : α → Prop} (hz : P zero) (hd : ∀ a j x, P a → dec a j = some x → P x) {l : List Json} {old xs : List α} (h0 : ∀ a ∈ old, P a)
    (h : decElems zero dec old l = some xs) : ∀ x ∈ xs, P x := by
  induction l generalizing old xs with
  | nil => cases h; simp
  | cons j l ih =>
    simp only [decElems] at h
    split at h
    · cases h
    · rename_i a ha
      split at h
      · cases h
      · rename_i r hr
        cases h
        intro x hx
        rcases List.mem_cons.1 hx with rfl | hx
        · refine hd _ _ _ ?_ ha
          cases old with
          | nil => exact hz
          | cons b old => exact h0 b (by simp)
        · exact ih (fun a ha => h0 a (List.mem_of_mem_tail ha)) hr x hx

theorem decSlice_inv {α : Type} {zero : α} {dec : α → Json → Option α} {P : α → Prop} (hz : P zero) (hd : ∀ a j x, P a → dec a j = some x → P x) (old : Option (Arr α)) (j : Json) (x : Option (Arr α))
    (h0 : ∀ a ∈ (old.getD ([], [])).1 ++ (old.getD ([], [])).2, P a) (h : decSlice zero dec old j = some x) : ∀ a ∈ (x.getD ([], [])).1 ++ (x.getD ([], [])).2, P a := by
  cases j <;> simp only [decSlice, reduceCtorEq, Option.some.injEq] at h
  case null => subst h; simp
  case arr l =>
    cases l with
    | nil => simp only [decArray, Option.map_some, Option.some.injEq] at h; subst h; simp
    | cons j l =>
      simp only [decArray] at h
      cases hl : decElems zero dec ((old.getD ([], [])).1 ++ (old.getD ([], [])).2) (j :: l) with
      | none => simp [hl] at h
      | some xs =>
        rw [hl] at h
        cases h
        intro a ha
        rcases List.mem_append.1 ha with ha | ha
        · exact decElems_inv hz hd h0 hl a ha
        · exact h0 a (List.mem_of_mem_drop ha)

theorem decAsn_read (old : AsnJson) (j : Json) (x : AsnJson) (h : decAsn old j = some x) : ReadAsn x := by
  cases j <;> simp only [decAsn, Option.some.injEq] at h
  case str s => subst h; exact ⟨trivial, by simp⟩
  case num lit =>
    cases hl : litFloat lit with
    | none => simp [hl] at h
    | some t => rw [hl] at h; cases h; exact ⟨litFloat_isFloat hl, by simp⟩
  all_goals
    split at h
    · cases h; exact ⟨trivial, by simp⟩
    · cases h

theorem decInt_fits (old : Int) (j : Json) (x : Int) (h0 : Fits64 old) (h : decInt old j = some x) : Fits64 x := by
  cases j <;> simp only [decInt, reduceCtorEq, Option.some.injEq] at h
  case null => subst h; exact h0
  case num lit =>
    split at h
    · split at h
      · rename_i hf; cases h; exact hf
      · cases h
    · cases h

theorem decPtr_fits (old : Option Int) (j : Json) (x : Option Int) (h0 : ∀ n, old = some n → Fits64 n) (h : decPtr 0 decInt old j = some x) : ∀ n, x = some n → Fits64 n := by
  have hz : Fits64 (old.getD 0) := by
    cases old with
    | none => exact ⟨by decide, by decide⟩
    | some n => exact h0 n rfl
  rintro n rfl
  unfold decPtr at h
  split at h
  · simp at h
  · cases hd : decInt (old.getD 0) j with
    | none => simp [hd] at h
    | some y => rw [hd] at h; cases h; exact decInt_fits _ _ _ hz hd

theorem bind_some {α β : Type} {o : Option α} {f : α → Option β} {y : β} (h : (o >>= f) = some y) : ∃ x, o = some x ∧ f x = some y := Option.bind_eq_some_iff.1 h

theorem decVrp_read (old : VRPJson) (j : Json) (x : VRPJson) (h0 : ReadVrp old) (h : decVrp old j = some x) : ReadVrp x := by
  cases j <;> simp only [decVrp, decStruct, reduceCtorEq, Option.some.injEq] at h
  case null => subst h; exact h0
  case obj o =>
    obtain ⟨p, -, h⟩ := bind_some h
    obtain ⟨m, -, h⟩ := bind_some h
    obtain ⟨a, ha, h⟩ := bind_some h
    obtain ⟨t, -, h⟩ := bind_some h
    obtain ⟨e, he, h⟩ := bind_some h
    cases h
    exact ⟨jsonField_inv (P := ReadAsn) (fun _ j x _ hx => decAsn_read _ j x hx) h0.1 ha, jsonField_inv (P := fun p => ∀ n, p = some n → Fits64 n) decPtr_fits h0.2 he⟩

theorem decKey_read (old : MemKey) (j : Json) (x : MemKey) (h0 : ReadKey old.key) (h : decKey old j = some x) : ReadKey x.key := by
  cases j <;> simp only [decKey, decStruct, reduceCtorEq, Option.some.injEq] at h
  case null => subst h; exact h0
  case obj o =>
    obtain ⟨p, -, h⟩ := bind_some h
    obtain ⟨e, he, h⟩ := bind_some h
    obtain ⟨t, -, h⟩ := bind_some h
    obtain ⟨k, -, h⟩ := bind_some h
    obtain ⟨s, -, h⟩ := bind_some h
    cases h
    exact jsonField_inv (P := fun p => ∀ n, p = some n → Fits64 n) decPtr_fits h0 he

theorem decodeFile_read {b : Bytes} {l : RPKIList} (h : decodeFile b = some l) : ReadList l := by
  have hzero : ReadVrp .zero := ⟨⟨trivial, by simp [VRPJson.zero]⟩, by simp [VRPJson.zero]⟩
  have hzk : ReadKey MemKey.zero.key := by simp [ReadKey, MemKey.zero, MemKey.key]
  unfold decodeFile at h
  split at h
  · cases h
  · rename_i j _
    obtain ⟨y, hy, rfl⟩ := Option.map_eq_some_iff.1 h
    clear h
    cases j <;> simp only [decList, decStruct, reduceCtorEq, Option.some.injEq] at hy
    case null => subst hy; exact ⟨by simp [MemList.list], by simp [MemList.list]⟩
    case obj o =>
      obtain ⟨m, -, hy⟩ := bind_some hy
      obtain ⟨r, hr, hy⟩ := bind_some hy
      obtain ⟨k, hk, hy⟩ := bind_some hy
      cases hy
      have h1 := jsonField_inv (P := fun l : Option (Arr VRPJson) => ∀ v ∈ (l.getD ([], [])).1 ++ (l.getD ([], [])).2, ReadVrp v) (decSlice_inv hzero decVrp_read) (by simp) hr
      have h2 := jsonField_inv (P := fun l : Option (Arr MemKey) => ∀ v ∈ (l.getD ([], [])).1 ++ (l.getD ([], [])).2, ReadKey v.key) (decSlice_inv (P := fun v : MemKey => ReadKey v.key) hzk decKey_read) (by simp) hk
      refine ⟨?_, ?_⟩
      · intro v hv
        cases r with
        | none => simp [MemList.list] at hv
        | some r => exact h1 v (List.mem_append_left _ hv)
      · intro v hv
        cases k with
        | none => simp [MemList.list] at hv
        | some k =>
          simp only [MemList.list, Option.map_some, Option.getD_some] at hv
          obtain ⟨m, hm, rfl⟩ := List.mem_map.1 hv
          exact h2 m (List.mem_append_left _ hm)

theorem withExceptions_read (wide : WideFloat) (slurm : Option Slurm) {l : RPKIList} (h : ReadList l) :
    (∀ v ∈ (withExceptions wide slurm l).1, ReadVrp v) ∧ ∀ k ∈ (withExceptions wide slurm l).2, ReadKey k := by
  cases slurm with
  | none => exact h
  | some c =>
    simp only [withExceptions, Slurm.filterAssert, List.mem_append, filterOnVRPs_eq, filterOnBRKs_eq, List.mem_filter]
    refine ⟨?_, ?_⟩
    · rintro v (⟨hv, -⟩ | hv)
      · exact h.1 v hv
      · obtain ⟨a, -, ha⟩ := List.mem_filterMap.1 hv
        unfold Slurm.assertVRP at ha
        split at ha
        · cases ha
        · cases ha; exact ⟨⟨trivial, by simp⟩, by simp⟩
    · rintro k (⟨hk, -⟩ | hk)
      · exact h.2 k hk
      · obtain ⟨a, -, rfl⟩ := List.mem_map.1 hk
        simp [ReadKey]

theorem fetchBoth_lastdata (e : Env) (t : Times) (f : Fetched) (s : UState) : (fetchBoth e t f s).1.lastdata = s.lastdata ∨ ∃ b, e.decode b = some (fetchBoth e t f s).1.lastdata := by
  have hfile : ∀ s', (updateFile e t.start t.change f.file f.cache s').1.lastdata = s'.lastdata ∨ ∃ b, e.decode b = some (updateFile e t.start t.change f.file f.cache s').1.lastdata := by
    intro s'
    obtain ⟨-, -, -, -, h1, h2⟩ := C49_file e t.start t.change f.file f.cache s'
    by_cases hn : Nothing e.sha e.decode s'.hashCache (s'.fetch.fetchFile f.file f.cache).2
    · exact .inl (h1 hn)
    · exact .inr ⟨_, h2 hn⟩
  unfold fetchBoth
  cases hsl : f.slurm with
  | none => exact hfile s
  | some x =>
    obtain ⟨file, o⟩ := x
    have := hfile (updateSlurm e file o s).1
    rw [(C49_slurm e file o s).2.1] at this
    exact this

/-- What is exported: entries that can be written, their number, and no `generated`. -/
def ExportRead (l : RPKIList) : Prop := ReadList l ∧ l.metadata.counts = (l.roas.getD []).length ∧ l.metadata.generated = none ∧ (l.roas = none → l.keys = none)

/-- In every reachable state the loaded file and the export come from files and local exceptions. -/
theorem reached_read {e : Env} (hd : e.decode = decodeFile) {s : UState} (h : Reached e s) : ReadList s.lastdata ∧ ExportRead s.exported := by
  have step : ∀ (s : UState) (t : Times) (f : Fetched), ReadList s.lastdata → ReadList (fetchBoth e t f s).1.lastdata := by
    intro s t f hr
    rcases fetchBoth_lastdata e t f s with h | ⟨b, hb⟩
    · rw [h]; exact hr
    · rw [hd] at hb; exact decodeFile_read hb
  have appl : ∀ (s : UState) (proc : Int), ReadList s.lastdata → ExportRead s.exported → ExportRead (applied e proc s).exported := by
    intro s proc h1 h2
    rcases applied_cases e proc s with h | ⟨-, -, -, -, h, -⟩
    · rw [h]; exact h2
    · rw [h]; exact ⟨withExceptions_read e.wide s.slurm h1, rfl, rfl, by simp⟩
  induction h with
  | init a b => exact ⟨⟨by simp [UState.init, RPKIList.empty], by simp [UState.init, RPKIList.empty]⟩, ⟨by simp [UState.init, RPKIList.empty], by simp [UState.init, RPKIList.empty]⟩, rfl, rfl, fun _ => rfl⟩
  | startup s t f hr ih =>
    have hx := (fetchBoth_frame e t f s).1.exported
    refine ⟨?_, ?_⟩
    · unfold startup
      simp only
      rw [(startup_keeps ..).1]
      exact step s t f ih.1
    · unfold startup
      simp only [updateFromNewState_eq]
      split
      · rw [hx]; exact ih.2
      · split
        · exact appl _ _ (step s t f ih.1) (by rw [hx]; exact ih.2)
        · rw [hx]; exact ih.2
  | refresh s t f hr ih =>
    have hx := (fetchBoth_frame e t f s).1.exported
    refine ⟨?_, ?_⟩
    · unfold refresh
      simp only
      rw [(afterFetch_keeps ..).1]
      exact step s t f ih.1
    · unfold refresh
      simp only
      rcases afterFetch_cases e t (fetchBoth e t f s).2 (fetchBoth e t f s).1 with h | ⟨h, _⟩ | ⟨h, _⟩ <;> rw [h]
      · rw [hx]; exact ih.2
      · exact appl _ _ (step s t f ih.1) (by rw [hx]; exact ih.2)
      · show ExportRead (fetchBoth e t f s).1.exported
        rw [hx]; exact ih.2

theorem writable_of_read {l : RPKIList} (h : ReadList l) (hc : Fits64 l.metadata.counts) (hg : l.metadata.generated = none) : Writable l :=
  ⟨hc, by simp [hg], fun v hv => (h.1 v hv).1.1, fun v hv => (h.1 v hv).2, h.2⟩

/-! ## What a written file says -/

theorem spells_self (name : String) : Spells name.toList name := by
  unfold Spells
  induction name.toList with
  | nil => exact .nil
  | cons c l ih => exact .cons (.inl rfl) ih

theorem field_there {α : Type} {o : List (Str × Json)} {name : String} {R : Json → α → Prop} {zero x : α} (j : Json) (hm : (name.toList, j) ∈ o) (h : OrNull R zero j x) : FieldIs o name R zero x :=
  .inl ⟨_, j, hm, spells_self name, h⟩

theorem field_absent {α : Type} {o : List (Str × Json)} {name : String} {R : Json → α → Prop} {zero : α} (h : ∀ m ∈ o, foldName m.1 ≠ foldName name.toList) : FieldIs o name R zero zero :=
  .inr ⟨fun n j hm hs => h (n, j) hm (spells_fold hs), rfl⟩

theorem encInt_is {x : Int} (h : Fits64 x) : IntIs (encInt x) x := by
  refine ⟨_, rfl, h.1, h.2, ?_⟩
  split
  · exact .inr ⟨_, x.natAbs, rfl, (denotes_iff _ _).2 (parseDec_decStr _), by omega⟩
  · exact .inl ⟨x.natAbs, (denotes_iff _ _).2 (parseDec_decStr _), by omega⟩

theorem encUint_is {w : Nat} (x : BitVec w) : UintIs w (encInt x.toNat) x :=
  ⟨_, encInt_nat _ ▸ rfl, (denotes_iff _ _).2 (parseDec_decStr _)⟩

theorem encInt_intText {x : Int} {lit : Str} (h : encInt x = .num lit) : IntText lit x := by
  unfold encInt at h
  cases h
  split
  · exact .inr ⟨_, x.natAbs, rfl, (denotes_iff _ _).2 (parseDec_decStr _), by omega⟩
  · exact .inl ⟨x.natAbs, (denotes_iff _ _).2 (parseDec_decStr _), by omega⟩

theorem encAsn_is (a : AsnJson) (h : WritableAsn a) : JsonAsnIs (encAsn a) (rereadAsn a) := by
  have int : ∀ x : Int, IsFloat x.natAbs → JsonAsnIs (encInt x) (.float x) := by
    intro x hx
    obtain ⟨lit, h1, h2⟩ := litFloat_enc hx
    obtain ⟨lit', h1', hn⟩ := encInt_text x
    cases h1.symm.trans h1'
    exact .inr (.inl ⟨lit, x, h1, (litFloat_iff hn (intText_small (encInt_intText h1)) x).1 h2, rfl⟩)
  cases a with
  | str s => exact .inl ⟨s, rfl, rfl⟩
  | float t => exact int t h
  | int n => exact int n h
  | uint32 n => exact int n.toNat (isFloat_small (by have := n.isLt; omega))
  | other => exact .inr (.inr ⟨by simp [encAsn], by simp [encAsn], fun _ h => (nomatch h), rfl⟩)

theorem encInt_ne_null (n : Int) : encInt n ≠ .null := by simp [encInt]

theorem omitText_names {name : String} {s : Str} : ∀ m ∈ omitText name s, m.1 = name.toList := by
  unfold omitText
  split <;> simp

theorem omitPtr_names {name : String} {p : Option Int} : ∀ m ∈ omitPtr name p, m.1 = name.toList := by
  cases p <;> simp [omitPtr]

theorem omitSlice_names {α : Type} {name : String} {enc : α → Json} {p : Option (List α)} : ∀ m ∈ omitSlice name enc p, m.1 = name.toList := by
  rcases p with _ | _ | _ <;> simp [omitSlice]

theorem fold_ne {n name : String} (h : (foldName n.toList == foldName name.toList) = false) : foldName n.toList ≠ foldName name.toList := by
  simpa using h

/-- A text field that is left out when empty. -/
theorem field_omitText {a b : List (Str × Json)} {name : String} {s : Str} (h : ∀ m ∈ a ++ b, foldName m.1 ≠ foldName name.toList) : FieldIs (a ++ omitText name s ++ b) name TextIs [] s := by
  unfold omitText
  split
  · rename_i hs
    subst hs
    refine field_absent fun m hm => h m ?_
    simpa using hm
  · exact field_there (.str s) (by simp) (.inr ⟨by simp, rfl⟩)

theorem field_omitPtr {a b : List (Str × Json)} {name : String} {p : Option Int} (hp : ∀ x, p = some x → Fits64 x) (h : ∀ m ∈ a ++ b, foldName m.1 ≠ foldName name.toList) :
    FieldIs (a ++ omitPtr name p ++ b) name IntOptIs none p := by
  cases p with
  | none =>
    refine field_absent fun m hm => h m ?_
    simpa [omitPtr] using hm
  | some x => exact field_there (encInt x) (by simp [omitPtr]) (.inr ⟨encInt_ne_null x, x, rfl, encInt_is (hp x rfl)⟩)

theorem encVrp_is (v : VRPJson) (ha : WritableAsn v.asn) (he : ∀ x, v.expires = some x → Fits64 x) : VrpIs (encVrp v) { v with asn := rereadAsn v.asn } := by
  refine ⟨_, rfl, field_there (.str v.pfx) (by simp) (.inr ⟨by simp, rfl⟩), field_there _ (by simp) (.inr ⟨encInt_ne_null _, encUint_is v.length⟩), ?_, ?_, ?_⟩
  · refine field_there (encAsn v.asn) (by simp) ?_
    cases hv : v.asn with
    | other => exact .inl ⟨rfl, rfl⟩
    | str s => exact .inr ⟨by simp [encAsn], encAsn_is _ trivial⟩
    | _ => exact .inr ⟨encInt_ne_null _, encAsn_is _ (hv ▸ ha)⟩
  · refine field_omitText (b := omitPtr "expires" v.expires) fun m hm => ?_
    simp only [List.mem_append, List.mem_cons, List.not_mem_nil, or_false] at hm
    rcases hm with (rfl | rfl | rfl) | hm
    iterate 3 exact fold_ne (by decide +kernel)
    rw [omitPtr_names m hm]; exact fold_ne (by decide +kernel)
  · have := field_omitPtr (a := [("prefix".toList, .str v.pfx), ("maxLength".toList, encInt v.length.toNat), ("asn".toList, encAsn v.asn)] ++ omitText "ta" v.ta) (b := []) (name := "expires") he fun m hm => ?_
    · simpa using this
    · simp only [List.mem_append, List.mem_cons, List.not_mem_nil, or_false] at hm
      rcases hm with (rfl | rfl | rfl) | hm
      iterate 3 exact fold_ne (by decide +kernel)
      rw [omitText_names m hm]; exact fold_ne (by decide +kernel)

theorem encKey_is (k : BgpSecKeyJson) (he : ∀ x, k.expires = some x → Fits64 x) : KeyIs (encKey k) k := by
  obtain ⟨t, ht, hb⟩ := encBytes_text k.pubkey
  refine ⟨_, rfl, field_there _ (by simp) (.inr ⟨encInt_ne_null _, encUint_is k.asn⟩), ?_, ?_, field_there (encBytes k.pubkey) (by simp) (.inr ⟨by rw [ht]; simp, .inl ⟨t, ht, hb⟩⟩),
    field_there (.str k.ski) (by simp) (.inr ⟨by simp, rfl⟩)⟩
  · have := field_omitPtr (a := [("asn".toList, encInt k.asn.toNat)]) (b := omitText "ta" k.ta ++ [("pubkey".toList, encBytes k.pubkey), ("ski".toList, .str k.ski)]) (name := "expires") he fun m hm => ?_
    · simpa using this
    · simp only [List.mem_append, List.mem_cons, List.not_mem_nil, or_false] at hm
      rcases hm with rfl | hm | rfl | rfl
      · exact fold_ne (by decide +kernel)
      · rw [omitText_names m hm]; exact fold_ne (by decide +kernel)
      · exact fold_ne (by decide +kernel)
      · exact fold_ne (by decide +kernel)
  · refine field_omitText fun m hm => ?_
    simp only [List.mem_append, List.mem_cons, List.not_mem_nil, or_false] at hm
    rcases hm with (rfl | hm) | rfl | rfl
    · exact fold_ne (by decide +kernel)
    · rw [omitPtr_names m hm]; exact fold_ne (by decide +kernel)
    · exact fold_ne (by decide +kernel)
    · exact fold_ne (by decide +kernel)

theorem field_encInt {a b : List (Str × Json)} {name : String} {x : Int} (h : Fits64 x) : FieldIs (a ++ [(name.toList, encInt x)] ++ b) name IntIs 0 x :=
  field_there (encInt x) (by simp) (.inr ⟨encInt_ne_null x, encInt_is h⟩)

/-- The session is left out when zero. -/
def omitZero (sessionID : Int) : List (Str × Json) := if sessionID = 0 then [] else [("sessionid".toList, encInt sessionID)]

theorem omitZero_names {x : Int} : ∀ m ∈ omitZero x, m.1 = "sessionid".toList := by
  unfold omitZero
  split <;> simp

/-- The members of the written metadata. -/
def metaMembers (m : Metadata) (countKeys sessionID serial : Int) : List (Str × Json) :=
  [("vrps".toList, encInt m.counts)] ++ ([("bgpsec_pubkeys".toList, encInt countKeys)] ++ (omitText "buildtime" m.buildtime ++ (omitPtr "generated" m.generated ++ (omitZero sessionID ++ [("serial".toList, encInt serial)]))))

theorem encMeta_eq (m : Metadata) (countKeys sessionID serial : Int) : encMeta m countKeys sessionID serial = .obj (metaMembers m countKeys sessionID serial) := by
  unfold encMeta metaMembers omitZero
  simp only [List.append_assoc, List.cons_append, List.nil_append]

theorem metaMembers_is (m : Metadata) (countKeys sessionID serial : Int) (hc : Fits64 m.counts) (hg : ∀ x, m.generated = some x → Fits64 x) (hk : Fits64 countKeys) (hi : Fits64 sessionID) (hs : Fits64 serial) :
    let o := metaMembers m countKeys sessionID serial
    FieldIs o "vrps" IntIs 0 m.counts ∧ FieldIs o "buildtime" TextIs [] m.buildtime ∧ FieldIs o "generated" IntOptIs none m.generated ∧ FieldIs o "bgpsec_pubkeys" IntIs 0 countKeys ∧ FieldIs o "sessionid" IntIs 0 sessionID ∧
      FieldIs o "serial" IntIs 0 serial := by
  refine ⟨?_, ?_, ?_, ?_, ?_, ?_⟩
  · exact field_there _ (by simp [metaMembers]) (.inr ⟨encInt_ne_null _, encInt_is hc⟩)
  · have := field_omitText (a := [("vrps".toList, encInt m.counts)] ++ [("bgpsec_pubkeys".toList, encInt countKeys)]) (b := omitPtr "generated" m.generated ++ (omitZero sessionID ++ [("serial".toList, encInt serial)])) (name := "buildtime") (s := m.buildtime) fun x hm => ?_
    · simpa only [metaMembers, List.append_assoc] using this
    · simp only [List.mem_append, List.mem_cons, List.not_mem_nil, or_false] at hm
      rcases hm with (rfl | rfl) | hm | hm | rfl
      · exact fold_ne (by decide +kernel)
      · exact fold_ne (by decide +kernel)
      · rw [omitPtr_names x hm]; exact fold_ne (by decide +kernel)
      · rw [omitZero_names x hm]; exact fold_ne (by decide +kernel)
      · exact fold_ne (by decide +kernel)
  · have := field_omitPtr (a := [("vrps".toList, encInt m.counts)] ++ ([("bgpsec_pubkeys".toList, encInt countKeys)] ++ omitText "buildtime" m.buildtime)) (b := omitZero sessionID ++ [("serial".toList, encInt serial)]) (name := "generated") hg fun x hm => ?_
    · simpa only [metaMembers, List.append_assoc] using this
    · simp only [List.mem_append, List.mem_cons, List.not_mem_nil, or_false] at hm
      rcases hm with (rfl | rfl | hm) | hm | rfl
      · exact fold_ne (by decide +kernel)
      · exact fold_ne (by decide +kernel)
      · rw [omitText_names x hm]; exact fold_ne (by decide +kernel)
      · rw [omitZero_names x hm]; exact fold_ne (by decide +kernel)
      · exact fold_ne (by decide +kernel)
  · exact field_there _ (by simp [metaMembers]) (.inr ⟨encInt_ne_null _, encInt_is hk⟩)
  · by_cases h0 : sessionID = 0
    · subst h0
      refine field_absent fun x hm => ?_
      simp only [metaMembers, omitZero, if_true, List.mem_append, List.mem_cons, List.not_mem_nil, or_false, false_or] at hm
      rcases hm with rfl | rfl | hm | hm | rfl
      · exact fold_ne (by decide +kernel)
      · exact fold_ne (by decide +kernel)
      · rw [omitText_names x hm]; exact fold_ne (by decide +kernel)
      · rw [omitPtr_names x hm]; exact fold_ne (by decide +kernel)
      · exact fold_ne (by decide +kernel)
    · exact field_there _ (by simp [metaMembers, omitZero, h0]) (.inr ⟨encInt_ne_null _, encInt_is hi⟩)
  · exact field_there _ (by simp [metaMembers]) (.inr ⟨encInt_ne_null _, encInt_is hs⟩)

theorem forall2_map {α β : Type} {R : Json → β → Prop} {enc : α → Json} {f : α → β} (l : List α) (h : ∀ a ∈ l, R (enc a) (f a)) : List.Forall₂ R (l.map enc) (l.map f) := by
  induction l with
  | nil => exact .nil
  | cons a l ih => exact .cons (h a (by simp)) (ih fun b hb => h b (by simp [hb]))

/-- The members of a written file. -/
def listMembers (l : RPKIList) (countKeys sessionID serial : Int) : List (Str × Json) :=
  [("metadata".toList, .obj (metaMembers l.metadata countKeys sessionID serial)), ("roas".toList, encSlice encVrp l.roas)] ++ omitSlice "bgpsec_keys" encKey l.keys

theorem encList_eq (l : RPKIList) (countKeys sessionID serial : Int) : encList l countKeys sessionID serial = .obj (listMembers l countKeys sessionID serial) := by
  unfold encList listMembers
  rw [encMeta_eq]

theorem encList_is (l : RPKIList) (h : Writable l) (countKeys sessionID serial : Int) (hk : Fits64 countKeys) (hi : Fits64 sessionID) (hs : Fits64 serial) :
    CacheIs (encList l countKeys sessionID serial) (rereadList l) := by
  rw [encList_eq]
  obtain ⟨m1, m2, m3, m4, m5, m6⟩ := metaMembers_is l.metadata countKeys sessionID serial h.counts h.generated hk hi hs
  refine ⟨_, rfl, field_there _ (by simp [listMembers]) (.inr ⟨by simp, _, rfl, m1, m2, m3, ⟨_, m4⟩, ⟨_, m5⟩, ⟨_, m6⟩⟩), ?_, ?_⟩
  · refine field_there (encSlice encVrp l.roas) (by simp [listMembers]) ?_
    unfold rereadList
    cases hr : l.roas with
    | none => exact .inl ⟨rfl, rfl⟩
    | some vs =>
      refine .inr ⟨by simp [encSlice], _, _, rfl, rfl, forall2_map vs fun v hv => .inr ⟨by simp [encVrp], encVrp_is v (h.asns v (by simpa [hr] using hv)) (h.vrpExpires v (by simpa [hr] using hv))⟩⟩
  · have hno : ∀ m ∈ [("metadata".toList, Json.obj (metaMembers l.metadata countKeys sessionID serial)), ("roas".toList, encSlice encVrp l.roas)], foldName m.1 ≠ foldName "bgpsec_keys".toList := by
      intro m hm
      simp only [List.mem_cons, List.not_mem_nil, or_false] at hm
      rcases hm with rfl | rfl <;> exact fold_ne (by decide +kernel)
    have hke := h.keyExpires
    unfold rereadList listMembers
    simp only
    rcases hkk : l.keys with _ | _ | ⟨k, ks⟩
    · simp only [omitSlice, List.append_nil, Option.getD_none, if_true]; exact field_absent hno
    · simp only [omitSlice, List.append_nil, Option.getD_some, if_true]; exact field_absent hno
    · simp only [Option.getD_some, reduceCtorEq, if_false]
      refine field_there (.arr ((k :: ks).map encKey)) (by simp [omitSlice]) (.inr ⟨by simp, _, _, rfl, rfl, ?_⟩)
      have := forall2_map (R := OrNull KeyIs ⟨0, none, [], [], []⟩) (f := id) (k :: ks) (enc := encKey) fun k' hk' => .inr ⟨by simp [encKey], encKey_is k' (hke k' (by rw [hkk]; exact hk'))⟩
      simpa only [List.map_id] using this

/-! ## No name twice -/

theorem within_obj {i : Json} {o : List (Str × Json)} (h : Within i (.obj o)) : i = .obj o ∨ ∃ m ∈ o, Within i m.2 := by
  cases h with
  | self => exact .inl rfl
  | member h hi => exact .inr ⟨_, h, hi⟩

theorem within_arr {i : Json} {l : List Json} (h : Within i (.arr l)) : i = .arr l ∨ ∃ j ∈ l, Within i j := by
  cases h with
  | self => exact .inl rfl
  | elem h hi => exact .inr ⟨_, h, hi⟩

theorem within_str {i : Json} {s : Str} (h : Within i (.str s)) : i = .str s := by cases h; rfl

theorem within_num {i : Json} {s : Str} (h : Within i (.num s)) : i = .num s := by cases h; rfl

theorem within_null {i : Json} (h : Within i .null) : i = .null := by cases h; rfl

theorem pairwise_names {o : List (Str × Json)} (L : List String) (hL : (L.map fun n => foldName n.toList).Nodup) (h : (o.map (·.1)).Sublist (L.map String.toList)) :
    o.Pairwise fun a b => ¬ ∃ name, Spells a.1 name ∧ Spells b.1 name := by
  have h1 : ((o.map (·.1)).map foldName).Nodup := by
    refine List.Nodup.sublist (h.map foldName) ?_
    rw [List.map_map]; exact hL
  unfold List.Nodup at h1
  rw [List.map_map, List.pairwise_map] at h1
  refine h1.imp fun {a b} hab => ?_
  rintro ⟨name, ha, hb⟩
  exact hab (by simp only [Function.comp]; rw [spells_fold ha, spells_fold hb])

theorem omitText_sub {name : String} {s : Str} : ((omitText name s).map (·.1)).Sublist [name.toList] := by
  unfold omitText
  split <;> simp

theorem omitPtr_sub {name : String} {p : Option Int} : ((omitPtr name p).map (·.1)).Sublist [name.toList] := by
  cases p <;> simp [omitPtr]

theorem omitZero_sub {x : Int} : ((omitZero x).map (·.1)).Sublist ["sessionid".toList] := by
  unfold omitZero
  split <;> simp

theorem omitSlice_sub {α : Type} {name : String} {enc : α → Json} {p : Option (List α)} : ((omitSlice name enc p).map (·.1)).Sublist [name.toList] := by
  rcases p with _ | _ | _ <;> simp [omitSlice]

theorem encVrp_names (v : VRPJson) : ∀ o, encVrp v = .obj o → o.Pairwise fun a b => ¬ ∃ name, Spells a.1 name ∧ Spells b.1 name := by
  rintro _ ⟨⟩
  refine pairwise_names ["prefix", "maxLength", "asn", "ta", "expires"] (by decide +kernel) ?_
  simp only [List.map_append, List.append_assoc]
  exact (List.Sublist.refl ["prefix".toList, "maxLength".toList, "asn".toList]).append (omitText_sub.append omitPtr_sub)

theorem encKey_names (k : BgpSecKeyJson) : ∀ o, encKey k = .obj o → o.Pairwise fun a b => ¬ ∃ name, Spells a.1 name ∧ Spells b.1 name := by
  rintro _ ⟨⟩
  refine pairwise_names ["asn", "expires", "ta", "pubkey", "ski"] (by decide +kernel) ?_
  simp only [List.map_append, List.append_assoc]
  exact (List.Sublist.refl ["asn".toList]).append (omitPtr_sub.append (omitText_sub.append (List.Sublist.refl ["pubkey".toList, "ski".toList])))

theorem meta_names (m : Metadata) (a b c : Int) : (metaMembers m a b c).Pairwise fun a b => ¬ ∃ name, Spells a.1 name ∧ Spells b.1 name := by
  refine pairwise_names ["vrps", "bgpsec_pubkeys", "buildtime", "generated", "sessionid", "serial"] (by decide +kernel) ?_
  simp only [metaMembers, List.map_append]
  exact (List.Sublist.refl ["vrps".toList]).append ((List.Sublist.refl ["bgpsec_pubkeys".toList]).append (omitText_sub.append (omitPtr_sub.append (omitZero_sub.append (List.Sublist.refl ["serial".toList])))))

theorem list_names (l : RPKIList) (a b c : Int) : (listMembers l a b c).Pairwise fun a b => ¬ ∃ name, Spells a.1 name ∧ Spells b.1 name := by
  refine pairwise_names ["metadata", "roas", "bgpsec_keys"] (by decide +kernel) ?_
  simp only [listMembers, List.map_append]
  exact (List.Sublist.refl ["metadata".toList, "roas".toList]).append omitSlice_sub

/-- What is inside a written file. -/
inductive Inside (l : RPKIList) (a b c : Int) : Json → Prop
  | list : Inside l a b c (.obj (listMembers l a b c))
  | md : Inside l a b c (.obj (metaMembers l.metadata a b c))
  | vrp (v : VRPJson) (h : v ∈ l.roas.getD []) : Inside l a b c (encVrp v)
  | key (k : BgpSecKeyJson) (h : k ∈ l.keys.getD []) : Inside l a b c (encKey k)
  | arr (x : List Json) : Inside l a b c (.arr x)
  | str (s : Str) : Inside l a b c (.str s)
  | null : Inside l a b c .null
  | count (x : Int) (h : x = l.metadata.counts ∨ some x = l.metadata.generated ∨ x = a ∨ x = b ∨ x = c) : Inside l a b c (encInt x)
  | entry (v : VRPJson) (h : v ∈ l.roas.getD []) (x : Int) (hx : x = v.length.toNat ∨ some x = v.expires ∨ encInt x = encAsn v.asn) : Inside l a b c (encInt x)
  | keyNum (k : BgpSecKeyJson) (h : k ∈ l.keys.getD []) (x : Int) (hx : x = k.asn.toNat ∨ some x = k.expires) : Inside l a b c (encInt x)

theorem within_int {i : Json} {x : Int} (h : Within i (encInt x)) : i = encInt x := within_num h

theorem mem_omitText {name : String} {s : Str} {m : Str × Json} (h : m ∈ omitText name s) : m.2 = .str s := by
  unfold omitText at h
  split at h
  · simp at h
  · rw [List.mem_singleton.1 h]

theorem mem_omitPtr {name : String} {p : Option Int} {m : Str × Json} (h : m ∈ omitPtr name p) : ∃ x, p = some x ∧ m.2 = encInt x := by
  cases p with
  | none => simp [omitPtr] at h
  | some x => rw [List.mem_singleton.1 h]; exact ⟨x, rfl, rfl⟩

theorem mem_omitZero {x : Int} {m : Str × Json} (h : m ∈ omitZero x) : m.2 = encInt x := by
  unfold omitZero at h
  split at h
  · simp at h
  · rw [List.mem_singleton.1 h]

theorem inside_vrp {l : RPKIList} {a b c : Int} {v : VRPJson} (hv : v ∈ l.roas.getD []) {i : Json} (h : Within i (encVrp v)) : Inside l a b c i := by
  rcases within_obj h with rfl | ⟨m, hm, hi⟩
  · exact .vrp v hv
  · simp only [List.mem_append, List.mem_cons, List.not_mem_nil, or_false] at hm
    rcases hm with ((rfl | rfl | rfl) | hm) | hm
    · rw [within_str hi]; exact .str _
    · rw [within_int hi]; exact .entry v hv _ (.inl rfl)
    · simp only at hi
      cases ha : v.asn with
      | str s => rw [ha] at hi; rw [within_str hi]; exact .str _
      | other => rw [ha] at hi; rw [within_null hi]; exact .null
      | float t => rw [ha] at hi; rw [within_int hi]; exact .entry v hv _ (.inr (.inr (by rw [ha]; rfl)))
      | int t => rw [ha] at hi; rw [within_int hi]; exact .entry v hv _ (.inr (.inr (by rw [ha]; rfl)))
      | uint32 t => rw [ha] at hi; rw [within_int hi]; exact .entry v hv _ (.inr (.inr (by rw [ha]; rfl)))
    · rw [mem_omitText hm] at hi; rw [within_str hi]; exact .str _
    · obtain ⟨x, hx, hj⟩ := mem_omitPtr hm
      rw [hj] at hi; rw [within_int hi]; exact .entry v hv _ (.inr (.inl hx.symm))

theorem inside_key {l : RPKIList} {a b c : Int} {k : BgpSecKeyJson} (hk : k ∈ l.keys.getD []) {i : Json} (h : Within i (encKey k)) : Inside l a b c i := by
  rcases within_obj h with rfl | ⟨m, hm, hi⟩
  · exact .key k hk
  · simp only [List.mem_append, List.mem_cons, List.not_mem_nil, or_false] at hm
    rcases hm with ((rfl | hm) | hm) | rfl | rfl
    · rw [within_int hi]; exact .keyNum k hk _ (.inl rfl)
    · obtain ⟨x, hx, hj⟩ := mem_omitPtr hm
      rw [hj] at hi; rw [within_int hi]; exact .keyNum k hk _ (.inr hx.symm)
    · rw [mem_omitText hm] at hi; rw [within_str hi]; exact .str _
    · rw [within_str hi]; exact .str _
    · rw [within_str hi]; exact .str _

theorem inside_meta {l : RPKIList} {a b c : Int} {i : Json} (h : Within i (.obj (metaMembers l.metadata a b c))) : Inside l a b c i := by
  rcases within_obj h with rfl | ⟨m, hm, hi⟩
  · exact .md
  · simp only [metaMembers, List.mem_append, List.mem_cons, List.not_mem_nil, or_false] at hm
    rcases hm with rfl | rfl | hm | hm | hm | rfl
    · rw [within_int hi]; exact .count _ (.inl rfl)
    · rw [within_int hi]; exact .count _ (.inr (.inr (.inl rfl)))
    · rw [mem_omitText hm] at hi; rw [within_str hi]; exact .str _
    · obtain ⟨x, hx, hj⟩ := mem_omitPtr hm
      rw [hj] at hi; rw [within_int hi]; exact .count _ (.inr (.inl hx.symm))
    · rw [mem_omitZero hm] at hi; rw [within_int hi]; exact .count _ (.inr (.inr (.inr (.inl rfl))))
    · rw [within_int hi]; exact .count _ (.inr (.inr (.inr (.inr rfl))))

theorem inside_list {l : RPKIList} {a b c : Int} {i : Json} (h : Within i (encList l a b c)) : Inside l a b c i := by
  rw [encList_eq] at h
  rcases within_obj h with rfl | ⟨m, hm, hi⟩
  · exact .list
  · simp only [listMembers, List.mem_append, List.mem_cons, List.not_mem_nil, or_false] at hm
    rcases hm with (rfl | rfl) | hm
    · exact inside_meta hi
    · simp only at hi
      cases hr : l.roas with
      | none => rw [hr] at hi; rw [within_null hi]; exact .null
      | some vs =>
        rw [hr] at hi
        rcases within_arr hi with rfl | ⟨j, hj, hi⟩
        · exact .arr _
        · obtain ⟨v, hv, rfl⟩ := List.mem_map.1 hj
          exact inside_vrp (by rw [hr]; exact hv) hi
    · rcases hk : l.keys with _ | _ | ⟨k, ks⟩
      · rw [hk] at hm; simp [omitSlice] at hm
      · rw [hk] at hm; simp [omitSlice] at hm
      · rw [hk] at hm
        rw [List.mem_singleton.1 hm] at hi
        rcases within_arr hi with rfl | ⟨j, hj, hi⟩
        · exact .arr _
        · obtain ⟨k', hk', rfl⟩ := List.mem_map.1 hj
          exact inside_key (by rw [hk]; exact hk') hi

theorem encList_noRepeats (l : RPKIList) (a b c : Int) : NoRepeats (encList l a b c) := by
  intro o ho
  generalize hj : Json.obj o = j at ho
  have := inside_list ho
  subst hj
  generalize hj : Json.obj o = j at this
  cases this with
  | list => cases hj; exact list_names l a b c
  | md => cases hj; exact meta_names l.metadata a b c
  | vrp v => exact encVrp_names v o hj.symm
  | key k => exact encKey_names k o hj.symm
  | _ => simp [encInt] at hj

/-! ## What a written file states -/

theorem encList_file (l : RPKIList) (a b c : Int) : IsJsonFile (encodeFile (encList l a b c)) (printJson (encList l a b c) ++ ['\n']) (listMembers l a b c) := by
  refine ⟨printJson (encList l a b c), ?_, rfl, utf8_str _, ?_⟩
  · have := print_text _ _ (encList_printable l a b c)
    rwa [encList_eq] at this ⊢
  · have := encList_noRepeats l a b c
    rwa [encList_eq] at this

theorem isJsonFile_first {b : Bytes} {s : Str} {o : List (Str × Json)} (h : IsJsonFile b s o) : FirstValue s (.obj o) := by
  obtain ⟨t, ht, rfl, -, -⟩ := h
  exact ⟨[], t, ['\n'], rfl, ws_nil, ht⟩

theorem reread_inRange {a : AsnJson} (h : AsnInRange a) : AsnInRange (rereadAsn a) := by
  cases a with
  | uint32 n => have := n.isLt; simp only [rereadAsn, AsnInRange]; omega
  | _ => exact h

theorem asnReads_inRange (wide : WideFloat) {a : AsnJson} (h : AsnInRange a) (hi : ∀ i, a ≠ .int i) (n : U32) : AsnReads wide a n ↔ AsnIs a n := by
  cases a with
  | float t =>
    simp only [AsnReads, AsnIs, AsnInRange] at *
    exact ⟨fun h' => h'.1 h, fun h' => ⟨fun _ => h', fun hn => absurd h hn⟩⟩
  | int i => exact absurd rfl (hi i)
  | _ => exact Iff.rfl

/-- A written file states exactly what its entries ask for. -/
theorem encList_states (wide : WideFloat) (now : Int) (l : RPKIList) (h : Writable l) (hi : ∀ v ∈ l.roas.getD [], ∀ i, v.asn ≠ .int i) (hin : ∀ v ∈ l.roas.getD [], AsnInRange v.asn)
    (countKeys sessionID serial : Int) (hk : Fits64 countKeys) (hsid : Fits64 sessionID) (hs : Fits64 serial) (r : Rec) :
    FileStates now (printJson (encList l countKeys sessionID serial) ++ ['\n']) r ↔ Wanted wide now (l.roas.getD []) (l.keys.getD []) r := by
  rw [← wanted_reread wide now l hi]
  have hf := isJsonFile_first (encList_file l countKeys sessionID serial)
  have hr : NoRepeats (.obj (listMembers l countKeys sessionID serial)) := by
    have := encList_noRepeats l countKeys sessionID serial
    rwa [encList_eq] at this
  have hc := encList_is l h countKeys sessionID serial hk hsid hs
  rw [encList_eq] at hc
  obtain ⟨o, ho, -, hroas, hkeys⟩ := hc
  cases ho
  cases r with
  | vrp p m a =>
    obtain ⟨h1, h2⟩ := entries_iff hf hr hroas
    have hrange : ∀ v ∈ (rereadList l).roas.getD [], AsnInRange v.asn ∧ ∀ i, v.asn ≠ .int i := by
      intro v hv
      have : v ∈ (l.roas.getD []).map fun v => { v with asn := rereadAsn v.asn } := by
        unfold rereadList at hv
        cases hl : l.roas <;> rw [hl] at hv <;> exact hv
      obtain ⟨w, hw, rfl⟩ := List.mem_map.1 this
      refine ⟨reread_inRange (hin w hw), fun i => ?_⟩
      simp only
      cases w.asn <;> simp [rereadAsn]
    have hint : ∀ e, Entry (printJson (encList l countKeys sessionID serial) ++ ['\n']) "roas" e → ∀ o lit, e = .obj o → Member o "asn" (.num lit) → ∃ x, IntText lit x ∧ 0 ≤ x ∧ x < 2 ^ 32 := by
      rintro e ⟨o', es, hf', ⟨n, hn, hsp⟩, hes⟩ o lit ho ⟨n', hn', hsp'⟩
      cases C103_unambiguous _ _ _ (by simp) (by simp) hf hf'
      have hfold := spells_fold hsp
      simp only [listMembers, List.mem_append, List.mem_cons, List.not_mem_nil, or_false, Prod.mk.injEq] at hn
      have hw : ∃ w ∈ l.roas.getD [], e = encVrp w := by
        rcases hn with (⟨-, hn⟩ | ⟨-, hn⟩) | hn
        · cases hn
        · cases hl : l.roas with
          | none => rw [hl] at hn; cases hn
          | some vs =>
            rw [hl] at hn
            cases hn
            obtain ⟨w, hw, rfl⟩ := List.mem_map.1 hes
            exact ⟨w, hw, rfl⟩
        · rw [show n = _ from omitSlice_names _ hn] at hfold
          exact absurd hfold (fold_ne (by decide +kernel))
      obtain ⟨w, hw, rfl⟩ := hw
      have ha := hin w hw
      have hfold' := spells_fold hsp'
      cases ho
      simp only [List.mem_append, List.mem_cons, List.not_mem_nil, or_false, Prod.mk.injEq] at hn'
      rcases hn' with ((⟨-, hn'⟩ | ⟨rfl, -⟩ | ⟨-, hn'⟩) | hn') | hn'
      · cases hn'
      · exact absurd hfold' (fold_ne (by decide +kernel))
      · cases hv : w.asn with
        | str s => rw [hv] at hn'; cases hn'
        | other => rw [hv] at hn'; cases hn'
        | float t => rw [hv] at hn' ha; exact ⟨t, encInt_intText hn'.symm, ha⟩
        | int t => exact (hi w hw t hv).elim
        | uint32 n => rw [hv] at hn'; exact ⟨n.toNat, encInt_intText hn'.symm, by omega, by have := n.isLt; omega⟩
      · rw [show n' = _ from omitText_names _ hn'] at hfold'
        exact absurd hfold' (fold_ne (by decide +kernel))
      · rw [show n' = _ from omitPtr_names _ hn'] at hfold'
        exact absurd hfold' (fold_ne (by decide +kernel))
    simp only [FileStates, Wanted]
    constructor
    · rintro ⟨e, he, hst⟩
      obtain ⟨hne, v, hv, ⟨rfl, -⟩ | ⟨-, hev⟩⟩ := h2 e he
      · obtain ⟨o, ho, -⟩ := hst
        cases ho
      · obtain ⟨s1, s2, s3⟩ := (statesVrp_iff hne hev (hint e he) _).1 hst
        exact ⟨v, hv, s1, (asnReads_inRange wide (hrange v hv).1 (hrange v hv).2 _).2 s2, s3⟩
    · rintro ⟨v, hv, s1, s2, s3⟩
      obtain ⟨e, he, hne, hev⟩ := h1 v hv
      have s2' := (asnReads_inRange wide (hrange v hv).1 (hrange v hv).2 _).1 s2
      rcases hev with ⟨-, hz⟩ | ⟨-, hev⟩
      · rw [hz] at s2'
        exact s2'.elim
      · exact ⟨e, he, (statesVrp_iff hne hev (hint e he) _).2 ⟨s1, s2', s3⟩⟩
  | brk a ski key =>
    obtain ⟨h1, h2⟩ := entries_iff hf hr hkeys
    have hg : ∀ e, Entry (printJson (encList l countKeys sessionID serial) ++ ['\n']) "bgpsec_keys" e → ∃ o, e = .obj o ∧ ∀ name ∈ ["asn", "ski", "pubkey"], ∃ j, Member o name j ∧ j ≠ .null := by
      rintro e ⟨o', es, hf', ⟨n, hn, hsp⟩, hes⟩
      cases C103_unambiguous _ _ _ (by simp) (by simp) hf hf'
      have hfold := spells_fold hsp
      simp only [listMembers, List.mem_append, List.mem_cons, List.not_mem_nil, or_false, Prod.mk.injEq] at hn
      rcases hn with (⟨-, hn⟩ | ⟨rfl, -⟩) | hn
      · cases hn
      · exact absurd hfold (fold_ne (by decide +kernel))
      · rcases hlk : l.keys with _ | _ | ⟨k, ks⟩ <;> rw [hlk] at hn
        · simp [omitSlice] at hn
        · simp [omitSlice] at hn
        · cases List.mem_singleton.1 hn
          obtain ⟨k', -, rfl⟩ := List.mem_map.1 hes
          refine ⟨_, rfl, fun name hname => ?_⟩
          simp only [List.mem_cons, List.not_mem_nil, or_false] at hname
          rcases hname with rfl | rfl | rfl
          · exact ⟨encInt k'.asn.toNat, ⟨_, by simp, spells_self "asn"⟩, encInt_ne_null _⟩
          · exact ⟨.str k'.ski, ⟨_, by simp, spells_self "ski"⟩, by simp⟩
          · exact ⟨encBytes k'.pubkey, ⟨_, by simp, spells_self "pubkey"⟩, by simp [encBytes]⟩
    simp only [FileStates, Wanted]
    constructor
    · rintro ⟨e, he, hst⟩
      obtain ⟨hne, k, hk, ⟨rfl, -⟩ | ⟨-, hev⟩⟩ := h2 e he
      · obtain ⟨o, ho, -⟩ := hst
        cases ho
      · obtain ⟨o, rfl, ho⟩ := hg e he
        exact ⟨k, hk, (statesKey_iff hne hev (by rintro _ ⟨⟩; exact ho) _).1 hst⟩
    · rintro ⟨k, hk, hst⟩
      obtain ⟨e, he, hne, hev⟩ := h1 k hk
      obtain ⟨o, rfl, ho⟩ := hg e he
      rcases hev with ⟨h, -⟩ | ⟨-, hev⟩
      · cases h
      · exact ⟨_, he, (statesKey_iff hne hev (by rintro _ ⟨⟩; exact ho) _).2 hst⟩

end StayRTR
