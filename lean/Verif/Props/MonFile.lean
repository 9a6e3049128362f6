import Verif.Props.MonMain
import Verif.Props.Session
import Verif.Proofs.Update

/-!
# C117: what rtrmon shows between a file and a stayrtr that serves it
-/

namespace StayRTR

open Spec MonMap

/-- A difference lists a name. -/
def Spec.Lists (d : MonMap) (k : Str) : Prop := (d.get k).isSome = true

/-- Records that are asked for have a real prefix. -/
theorem wanted_real {wide : WideFloat} {now : Int} {vs : List VRPJson} {ks : List BgpSecKeyJson} {r : Rec} (h : Wanted wide now vs ks r) : RealRec r := by
  cases r with
  | vrp p m a =>
    obtain ⟨v, -, h1, -⟩ := h
    have := valid_of_parse ((prefixText_iff ..).mpr h1)
    exact ⟨this.1, by simpa [Prefix.isValid] using this.2⟩
  | brk a ski key => trivial

theorem hexText_chars {s : Str} {b : Bytes} (h : HexText s b) {c : Char} (hc : c ∈ s) : hexValueOf c ≠ none := by
  induction h with
  | nil => cases hc
  | @cons a b l x y r ha hb h ih =>
    rcases List.mem_cons.mp hc with rfl | hc
    · rw [ha]; simp
    · rcases List.mem_cons.mp hc with rfl | hc
      · rw [hb]; simp
      · exact ih hc

theorem hexText_no_dash {s : Str} {b : Bytes} (h : HexText s b) : '-' ∉ s := fun hc => hexText_chars h hc (by decide)

/-- What an event brings: only PDUs about records with a real prefix. -/
def Spec.RealEvent : MonEvent → Prop
  | .pdu _ p => ∀ r, pduRecord p = some r → RealRec r
  | _ => True

theorem step_view (brk : Bool) (s : MonState) (e : MonEvent) (he : RealEvent e) (h : s.client.vrpsRtr.Ok ∧ OnlyReal s.client.vrpsRtr) :
    (s.step brk e).1.client.vrpsRtr.Ok ∧ OnlyReal (s.step brk e).1.client.vrpsRtr := by
  unfold MonState.step
  split
  · exact h
  · cases e with
    | connect => simp only; split <;> exact h
    | connectFails => simp only; split <;> exact h
    | lost => simp only; split <;> exact h
    | timer => simp only; split <;> exact h
    | pdu now p =>
      simp only
      split
      · have hcl : (CSession.onPdu (monPdu now brk) s.session s.client p).2.1 = (monPdu now brk s.client p).1 := by
          unfold CSession.onPdu
          rfl
        simp only [hcl]
        by_cases hp : IsData p
        · have := feed_ok brk [(now, p)] s.client (fun x hx => by rw [List.mem_singleton.1 hx]; exact hp) h.1
          have h2 := onlyReal_feed brk [(now, p)] s.client (fun x hx => by rw [List.mem_singleton.1 hx]; exact hp) (fun x hx => by rw [List.mem_singleton.1 hx]; exact he) h.2
          exact ⟨this, h2⟩
        · have : (monPdu now brk s.client p).1.vrpsRtr = s.client.vrpsRtr := by
            cases p <;> first | rfl | exact (hp rfl).elim
          rw [this]
          exact h
      · exact h

/-- The view of a monitor has records with real prefixes only, if it hears of no others. -/
theorem run_view (brk : Bool) (es : List MonEvent) (s : MonState) (hes : ∀ e ∈ es, RealEvent e) (h : s.client.vrpsRtr.Ok ∧ OnlyReal s.client.vrpsRtr) :
    (s.run brk es).1.client.vrpsRtr.Ok ∧ OnlyReal (s.run brk es).1.client.vrpsRtr := by
  induction es generalizing s with
  | nil => exact h
  | cons e es ih =>
    simp only [MonState.run]
    exact ih _ (fun x hx => hes x (List.mem_cons_of_mem _ hx)) (step_view brk s e (hes e List.mem_cons_self) h)

/-- **C117.** A file on one side and on the other an RTR source after any sessions, with a new session and a full synchronisation at the end: the first list of `/diff.json` has exactly the names of the file that are neither names of
records of the new session nor of the view that the sessions before have left, the second exactly the names of the session and of that view that are not names of the file. -/
theorem C117_sessions (wide : WideFloat) (vs : List VRPJson) (ks : List BgpSecKeyJson) (grace t : Int) (us : List (Int × Update)) (ho : ((t, Update.file vs ks) :: us).Pairwise fun a b => b.1 ≤ a.1)
    (brk : Bool) (es : List MonEvent) (hes : ∀ e ∈ es, RealEvent e) (hc : (MonState.init.run brk es).1.session.connected = false) (he : (MonState.init.run brk es).1.ended = false)
    (t' : Int) (sid : U16) (n : U32) (l : List (Int × Pdu)) (hd : ∀ x ∈ l, IsData x.2) (hf : ∀ x ∈ l, pduFlag x.2 = some 1)
    (hv : ∀ x ∈ l, ∀ r, pduRecord x.2 = some r → RealRec r) (k : Str) :
    let m := mapAfter wide grace ((t, .file vs ks) :: us)
    let w := (MonState.init.run brk (es ++ fullSync t' sid n l)).1.client.vrps
    let had := fun r => RealRec r ∧ (Holds (MonState.init.run brk es).1.client.vrpsRtr r ∨ r ∈ l.filterMap (fun x => pduRecord x.2))
    (Lists (monDiff m w) k ↔ k ∈ names wide vs ks ∧ ¬ ∃ r, had r ∧ recName r = k) ∧
    (Lists (monDiff w m) k ↔ (∃ r, had r ∧ recName r = k) ∧ k ∉ names wide vs ks) := by
  intro m w had
  have hview := run_view brk es MonState.init hes ⟨ok_nil, fun k e h => by cases h⟩
  have hw : w = (monFeed brk { (MonState.init.run brk es).1.client with sessionID := sid } l).vrpsRtr := by
    show (MonState.init.run brk (es ++ fullSync t' sid n l)).1.client.vrps = _
    rw [run_append]
    exact fullSync_client brk _ hc he t' sid n l hd
  have hwok : w.Ok := by rw [hw]; exact feed_ok brk l _ hd hview.1
  have hwreal : OnlyReal w := by rw [hw]; exact onlyReal_feed brk l _ hd hv hview.2
  have F := mapAfter_faithful wide grace ((t, Update.file vs ks) :: us) (sightings_order wide ho)
  have hheld : ∀ r, RealRec r → (Holds w r ↔ had r) := by
    intro r hr
    have := C64_union_partial brk (MonState.init.run brk es).1 hc he t' sid n l hd hv hf r hr
    have ew : w = ((MonState.init.run brk es).1.run brk (fullSync t' sid n l)).1.client.vrps := by
      show (MonState.init.run brk (es ++ fullSync t' sid n l)).1.client.vrps = _
      rw [run_append]
    rw [ew]
    exact this.trans ⟨fun h => ⟨hr, h⟩, fun h => h.2⟩
  -- shown in the map of the file ↔ a name of the file
  have hm : (∃ e, m.get k = some e ∧ e.visible = true) ↔ k ∈ names wide vs ks := by
    have hver := F.verdict k
    simp only [sightings] at hver
    by_cases hk : k ∈ names wide vs ks
    · rw [verdict_mem hk] at hver
      refine ⟨fun _ => hk, fun _ => ?_⟩
      cases hg : m.get k with
      | none => rw [show (mapAfter wide grace ((t, Update.file vs ks) :: us)).get k = none from hg] at hver; cases hver
      | some e =>
        rw [show (mapAfter wide grace ((t, Update.file vs ks) :: us)).get k = some e from hg] at hver
        simp only [Option.map_some, tells, Option.some.injEq, Prod.mk.injEq] at hver
        exact ⟨e, rfl, hver.1⟩
    · refine ⟨?_, fun h => absurd h hk⟩
      rintro ⟨e, he, hvis⟩
      rw [show (mapAfter wide grace ((t, Update.file vs ks) :: us)).get k = some e from he] at hver
      simp only [Option.map_some, tells, hvis] at hver
      exact absurd (verdict_true.mp hver.symm).1 (by rw [since_not_mem hk]; simp)
  -- in the view ↔ a name of a record of the session
  have hwk : (w.get k).isSome = true ↔ ∃ r, had r ∧ recName r = k := by
    constructor
    · intro h
      obtain ⟨e, he⟩ := Option.isSome_iff_exists.mp h
      obtain ⟨r, hr, hrk, -⟩ := hwreal k e he
      refine ⟨r, (hheld r hr).mp ?_, hrk⟩
      unfold Holds
      rw [hrk]
      exact h
    · rintro ⟨r, hr, rfl⟩
      exact (hheld r hr.1).mpr hr
  have hwvis : ∀ e, w.get k = some e → e.visible = true := by
    intro e he
    obtain ⟨-, -, -, -, hvis⟩ := hwreal k e he
    exact hvis
  constructor
  · rw [← hwk, ← hm]
    unfold Lists
    rw [Option.isSome_iff_exists]
    simp only [(diff_get m w F.ok).2]
    constructor
    · rintro ⟨e, h1, h2, h3⟩
      refine ⟨⟨e, h1, h2⟩, fun h => ?_⟩
      obtain ⟨e', he'⟩ := Option.isSome_iff_exists.mp h
      have := hwvis e' he'
      rw [h3 e' he'] at this
      cases this
    · rintro ⟨⟨e, h1, h2⟩, h3⟩
      refine ⟨e, h1, h2, fun e' he' => absurd ?_ h3⟩
      rw [he']
      rfl
  · rw [← hwk, ← hm]
    unfold Lists
    simp only [Option.isSome_iff_exists, (diff_get w m hwok).2]
    constructor
    · rintro ⟨e, h1, h2, h3⟩
      refine ⟨⟨e, h1⟩, ?_⟩
      rintro ⟨e', he', hvis⟩
      rw [h3 e' he'] at hvis
      cases hvis
    · rintro ⟨⟨e, h1⟩, h2⟩
      refine ⟨e, h1, hwvis e h1, fun e' he' => ?_⟩
      cases hvis : e'.visible with
      | false => rfl
      | true => exact absurd ⟨e', he', hvis⟩ h2

/-- **C117.** The first session: the first list of `/diff.json` has exactly the names of the file that are not names of records of the session, the second exactly
the names of records of the session that are not names of the file. -/
theorem C117_names (wide : WideFloat) (vs : List VRPJson) (ks : List BgpSecKeyJson) (grace t : Int) (us : List (Int × Update)) (ho : ((t, Update.file vs ks) :: us).Pairwise fun a b => b.1 ≤ a.1)
    (brk : Bool) (t' : Int) (sid : U16) (n : U32) (l : List (Int × Pdu)) (hd : ∀ x ∈ l, IsData x.2) (hf : ∀ x ∈ l, pduFlag x.2 = some 1)
    (hv : ∀ x ∈ l, ∀ r, pduRecord x.2 = some r → RealRec r) (k : Str) :
    let m := mapAfter wide grace ((t, .file vs ks) :: us)
    let w := (MonState.init.run brk (fullSync t' sid n l)).1.client.vrps
    (Lists (monDiff m w) k ↔ k ∈ names wide vs ks ∧ ¬ ∃ r ∈ l.filterMap (fun x => pduRecord x.2), recName r = k) ∧
    (Lists (monDiff w m) k ↔ (∃ r ∈ l.filterMap (fun x => pduRecord x.2), recName r = k) ∧ k ∉ names wide vs ks) := by
  have hreal : ∀ r ∈ l.filterMap (fun x => pduRecord x.2), RealRec r := by
    intro r hr
    obtain ⟨x, hx, hxr⟩ := List.mem_filterMap.mp hr
    exact hv x hx r hxr
  have hiff : (∃ r, (RealRec r ∧ (Holds (MonState.init.run brk []).1.client.vrpsRtr r ∨ r ∈ l.filterMap (fun x => pduRecord x.2))) ∧ recName r = k) ↔ ∃ r ∈ l.filterMap (fun x => pduRecord x.2), recName r = k := by
    constructor
    · rintro ⟨r, ⟨-, h | h⟩, hk⟩
      · unfold Holds at h
        cases h
      · exact ⟨r, h, hk⟩
    · rintro ⟨r, h, hk⟩
      exact ⟨r, ⟨hreal r h, .inr h⟩, hk⟩
  have := C117_sessions wide vs ks grace t us ho brk [] (fun _ h => (List.not_mem_nil h).elim) rfl rfl t' sid n l hd hf hv k
  simp only [hiff] at this
  exact this

/-- The session carries what stayrtr serves from the file without local exceptions. -/
def Spec.Carries (l : List (Int × Pdu)) (served : Rec → Prop) : Prop := (∀ x ∈ l, IsData x.2) ∧ (∀ x ∈ l, pduFlag x.2 = some 1) ∧ ∀ r, r ∈ l.filterMap (fun x => pduRecord x.2) ↔ served r

theorem carries_names {wide : WideFloat} {now : Int} {vs : List VRPJson} {ks : List BgpSecKeyJson} {grace t : Int} {us : List (Int × Update)} (ho : ((t, Update.file vs ks) :: us).Pairwise fun a b => b.1 ≤ a.1)
    {brk : Bool} {t' : Int} {sid : U16} {n : U32} {l : List (Int × Pdu)} (h : Carries l (Wanted wide now vs ks)) (k : Str) :
    (Lists (monDiff (mapAfter wide grace ((t, .file vs ks) :: us)) (MonState.init.run brk (fullSync t' sid n l)).1.client.vrps) k ↔ k ∈ names wide vs ks ∧ ¬ ∃ r, Wanted wide now vs ks r ∧ recName r = k) ∧
    (Lists (monDiff (MonState.init.run brk (fullSync t' sid n l)).1.client.vrps (mapAfter wide grace ((t, .file vs ks) :: us))) k ↔ (∃ r, Wanted wide now vs ks r ∧ recName r = k) ∧ k ∉ names wide vs ks) := by
  obtain ⟨hd, hf, hr⟩ := h
  have := C117_names wide vs ks grace t us ho brk t' sid n l hd hf (fun x hx r hxr => wanted_real ((hr r).mp (List.mem_filterMap.mpr ⟨x, hx, hxr⟩))) k
  simpa only [hr] using this

/-- **C117.** A VRP of the file is listed as missing over RTR iff stayrtr does not serve it: its prefix has length 0, its maxLength is out of range or it has expired, and no other entry of the file gives the same VRP without such a flaw. -/
theorem C117_vrps (wide : WideFloat) (now : Int) (vs : List VRPJson) (ks : List BgpSecKeyJson) (grace t : Int) (us : List (Int × Update)) (ho : ((t, Update.file vs ks) :: us).Pairwise fun a b => b.1 ≤ a.1)
    (brk : Bool) (t' : Int) (sid : U16) (n : U32) (l : List (Int × Pdu)) (h : Carries l (Wanted wide now vs ks))
    (v : VRPJson) (hv : v ∈ vs) (p : Prefix) (hp : PrefixText v.pfx p) (asn : U32) (ha : AsnReads wide v.asn asn) :
    Lists (monDiff (mapAfter wide grace ((t, .file vs ks) :: us)) (MonState.init.run brk (fullSync t' sid n l)).1.client.vrps) (recName (.vrp p v.length asn)) ↔
      p.bits = 0 ∨ (v.length.toNat : Int) < p.bits ∨ p.ip.bitLen < v.length.toNat ∨
        ∀ v' ∈ vs, PrefixText v'.pfx p → AsnReads wide v'.asn asn → v'.length = v.length → ∃ e, v'.expires = some e ∧ e < now := by
  have hpv := valid_of_parse ((prefixText_iff ..).mpr hp)
  have hreal : RealRec (.vrp p v.length asn) := ⟨hpv.1, by simpa [Prefix.isValid] using hpv.2⟩
  have hname : recName (.vrp p v.length asn) ∈ names wide vs ks := by
    refine List.mem_append.mpr (.inl (List.mem_filterMap.mpr ⟨v, hv, ?_⟩))
    rw [(asnReads_iff ..).mpr ha, getPrefix2_eq, (prefixText_iff ..).mpr hp]
    rfl
  rw [(carries_names ho h _).1]
  have hw : (∃ r, Wanted wide now vs ks r ∧ recName r = recName (.vrp p v.length asn)) ↔ Wanted wide now vs ks (.vrp p v.length asn) :=
    ⟨fun ⟨r, h1, h2⟩ => recName_inj (wanted_real h1) hreal h2 ▸ h1, fun h => ⟨_, h, rfl⟩⟩
  rw [hw]
  have hb := hpv.bits_le
  simp only [hname, true_and, Wanted]
  constructor
  · intro hn
    by_cases h1 : 1 ≤ p.bits
    · by_cases h2 : p.bits ≤ (v.length.toNat : Int)
      · by_cases h3 : v.length.toNat ≤ p.ip.bitLen
        · refine .inr (.inr (.inr fun v' hv' k1 k2 k3 => ?_))
          by_contra hc
          refine hn ⟨v', hv', k1, k2, k3, h1, h2, h3, fun e he => ?_⟩
          by_contra hlt
          exact hc ⟨e, he, by omega⟩
        · exact .inr (.inr (.inl (by omega)))
      · exact .inr (.inl (by omega))
    · exact .inl (by omega)
  · rintro h ⟨v', hv', k1, k2, k3, k4, k5, k6, k7⟩
    rcases h with h | h | h | h
    · omega
    · omega
    · omega
    · obtain ⟨e, he, hlt⟩ := h v' hv' k1 k2 k3
      have := k7 e he
      omega

/-- **C117.** A router key of the file with a readable key identifier is listed as missing over RTR iff its key identifier is not written in lower case, or every entry with the same key, ASN and identifier, in whatever case,
has expired. -/
theorem C117_keys (wide : WideFloat) (now : Int) (vs : List VRPJson) (ks : List BgpSecKeyJson) (grace t : Int) (us : List (Int × Update)) (ho : ((t, Update.file vs ks) :: us).Pairwise fun a b => b.1 ≤ a.1)
    (brk : Bool) (t' : Int) (sid : U16) (n : U32) (l : List (Int × Pdu)) (h : Carries l (Wanted wide now vs ks))
    (b : BgpSecKeyJson) (hb : b ∈ ks) (ski : Bytes) (hs : HexText b.ski ski) :
    Lists (monDiff (mapAfter wide grace ((t, .file vs ks) :: us)) (MonState.init.run brk (fullSync t' sid n l)).1.client.vrps) (monBrkKey b.ski b.asn b.pubkey) ↔
      b.ski ≠ hexBytes ski ∨ ∀ b' ∈ ks, b'.asn = b.asn → HexText b'.ski ski → b'.pubkey = b.pubkey → ∃ e, b'.expires = some e ∧ e < now := by
  have hname : monBrkKey b.ski b.asn b.pubkey ∈ names wide vs ks := List.mem_append.mpr (.inr (List.mem_map.mpr ⟨b, hb, rfl⟩))
  rw [(carries_names ho h _).1]
  have hw : (∃ r, Wanted wide now vs ks r ∧ recName r = monBrkKey b.ski b.asn b.pubkey) ↔ b.ski = hexBytes ski ∧ Wanted wide now vs ks (.brk b.asn ski b.pubkey) := by
    constructor
    · rintro ⟨r, h1, h2⟩
      have hdash := hexText_no_dash hs
      cases r with
      | vrp p m a =>
        exfalso
        have hp := realRec_valid (wanted_real h1)
        obtain ⟨e, -⟩ := append_sep_inj (dash_not_prefix hp) hdash h2
        have hslash := Prefix.toStr_slash hp
        rw [e] at hslash
        exact hexText_chars hs hslash (by decide)
      | brk a s k =>
        obtain ⟨e1, e2⟩ := append_sep_inj (not_mem_of_digits (hexBytes_digits _) dash_not_digit) hdash h2
        obtain ⟨e2, e3⟩ := append_sep_inj (not_mem_of_digits (decStr_digits _) dash_not_digit) (not_mem_of_digits (decStr_digits _) dash_not_digit) e2
        have hs' := (hexText_iff ..).mpr hs
        rw [← e1, hexDecode_hexBytes] at hs'
        have e4 : s = ski := congrArg Prod.fst hs'
        subst e4
        rw [← e1, ← BitVec.eq_of_toNat_eq (decStr_inj e2), ← rawStr_inj e3]
        exact ⟨rfl, h1⟩
    · rintro ⟨h1, h2⟩
      exact ⟨_, h2, by rw [recName, ← h1]⟩
  rw [hw]
  simp only [hname, true_and, Wanted, ServesKey]
  constructor
  · intro hn
    by_cases h1 : b.ski = hexBytes ski
    · refine .inr fun b' hb' k1 k2 k3 => ?_
      by_contra hc
      refine hn ⟨h1, b', hb', k1, k2, k3, fun e he => ?_⟩
      by_contra hlt
      exact hc ⟨e, he, by omega⟩
    · exact .inl h1
  · rintro h ⟨h1, b', hb', k1, k2, k3, k4⟩
    rcases h with h | h
    · exact h h1
    · obtain ⟨e, he, hlt⟩ := h b' hb' k1 k2 k3
      have := k4 e he
      omega

/-- **C117.** What is listed as missing in the file, for all files: no VRP at all, and exactly the router keys that are served and whose name no entry has. -/
theorem C117_extra_names (wide : WideFloat) (now : Int) (vs : List VRPJson) (ks : List BgpSecKeyJson) (grace t : Int) (us : List (Int × Update)) (ho : ((t, Update.file vs ks) :: us).Pairwise fun a b => b.1 ≤ a.1)
    (brk : Bool) (t' : Int) (sid : U16) (n : U32) (l : List (Int × Pdu)) (h : Carries l (Wanted wide now vs ks)) (k : Str) :
    Lists (monDiff (MonState.init.run brk (fullSync t' sid n l)).1.client.vrps (mapAfter wide grace ((t, .file vs ks) :: us))) k ↔
      ∃ b ∈ ks, ∃ ski, ServesKey now b (b.asn, ski, b.pubkey) ∧ k = monBrkKey (hexBytes ski) b.asn b.pubkey ∧ ∀ b' ∈ ks, monBrkKey b'.ski b'.asn b'.pubkey ≠ k := by
  rw [(carries_names ho h _).2]
  constructor
  · rintro ⟨⟨r, hr, rfl⟩, hn⟩
    cases r with
    | vrp p m a =>
      obtain ⟨v, hv, h1, h2, h3, -⟩ := hr
      refine absurd (List.mem_append.mpr (.inl (List.mem_filterMap.mpr ⟨v, hv, ?_⟩))) hn
      rw [(asnReads_iff ..).mpr h2, getPrefix2_eq, (prefixText_iff ..).mpr h1, h3]
      rfl
    | brk a ski key =>
      obtain ⟨b, hb, h1, h2, h3, h4⟩ := hr
      simp only at h1 h2 h3
      subst h1 h3
      exact ⟨b, hb, ski, ⟨rfl, h2, rfl, h4⟩, rfl, fun b' hb' hk => hn (List.mem_append.mpr (.inr (List.mem_map.mpr ⟨b', hb', hk⟩)))⟩
  · rintro ⟨b, hb, ski, hs, rfl, hno⟩
    refine ⟨⟨.brk b.asn ski b.pubkey, ⟨b, hb, hs⟩, rfl⟩, fun hn => ?_⟩
    rcases List.mem_append.mp hn with hn | hn
    · obtain ⟨v, -, hk⟩ := List.mem_filterMap.mp hn
      cases h1 : v.getASN2 wide with
      | none => rw [h1] at hk; cases hk
      | some asn =>
        cases h2 : v.getPrefix2 with
        | none => rw [h1, h2] at hk; cases hk
        | some p =>
          rw [h1, h2] at hk
          simp only [Option.some.injEq] at hk
          rw [getPrefix2_eq] at h2
          have hpv := valid_of_parse h2
          have := recName_inj (r := .vrp p v.length asn) (r' := .brk b.asn ski b.pubkey) ⟨hpv.1, by simpa [Prefix.isValid] using hpv.2⟩ trivial hk
          cases this
    · obtain ⟨b', hb', hk⟩ := List.mem_map.mp hn
      exact hno b' hb' hk

/-- **C117.** What is listed as missing in the file: no VRP at all, and exactly the router keys that are served and whose key identifier is written in lower case in no entry. -/
theorem C117_extra (wide : WideFloat) (now : Int) (vs : List VRPJson) (ks : List BgpSecKeyJson) (grace t : Int) (us : List (Int × Update)) (ho : ((t, Update.file vs ks) :: us).Pairwise fun a b => b.1 ≤ a.1)
    (brk : Bool) (t' : Int) (sid : U16) (n : U32) (l : List (Int × Pdu)) (h : Carries l (Wanted wide now vs ks)) (hski : ∀ b ∈ ks, ∃ ski, HexText b.ski ski) (k : Str) :
    Lists (monDiff (MonState.init.run brk (fullSync t' sid n l)).1.client.vrps (mapAfter wide grace ((t, .file vs ks) :: us))) k ↔
      ∃ b ∈ ks, ∃ ski, ServesKey now b (b.asn, ski, b.pubkey) ∧ k = monBrkKey (hexBytes ski) b.asn b.pubkey ∧ ∀ b' ∈ ks, b'.asn = b.asn → b'.pubkey = b.pubkey → b'.ski ≠ hexBytes ski := by
  rw [C117_extra_names wide now vs ks grace t us ho brk t' sid n l h]
  refine exists_congr fun b => and_congr_right fun hb => exists_congr fun ski => and_congr_right fun hs => and_congr_right ?_
  rintro rfl
  constructor
  · intro hno b' hb' k1 k2 k3
    exact hno b' hb' (by rw [k1, k2, k3])
  · intro hno b' hb' hk
    obtain ⟨ski', hs'⟩ := hski b' hb'
    obtain ⟨e1, e2⟩ := append_sep_inj (hexText_no_dash hs') (not_mem_of_digits (hexBytes_digits _) dash_not_digit) hk
    obtain ⟨e2, e3⟩ := append_sep_inj (not_mem_of_digits (decStr_digits _) dash_not_digit) (not_mem_of_digits (decStr_digits _) dash_not_digit) e2
    exact hno b' hb' (BitVec.eq_of_toNat_eq (decStr_inj e2)) (rawStr_inj e3) e1

/-- **C117.** The session with stayrtr: if the server holds what the file asks for, then the bytes that it sends for a Reset Query in version 1, read by a client, are an answer whose data PDUs carry it, at whatever times they
are read. So the theorems above apply to them. -/
theorem C117_session {cfg : ServerConfig} {s : U16} {c : Client} (h : Conn (newServer cfg s) c) (hc : c.connected = true) {pkt : Bytes} {v : U8} (hp : decodeBytes pkt = .ok (.resetQuery v)) (ha : Acceptable c v)
    (hv : lower v cfg.protocolVersion = 1) (hkeys : c.dontSendBGPsecKeys = false) {k : Int} {st : Store} (hr : Reachable k st) (hst : st.current ≠ []) (henc : ∀ x ∈ st.current, Encodable x)
    {wide : WideFloat} {now : Int} {vs : List VRPJson} {ks : List BgpSecKeyJson} (hserved : ∀ r, r ∈ records st.current ↔ Wanted wide now vs ks r) :
    ∃ (c' : Client) (e : List Effect) (bs : List Bytes) (data : List Pdu) (refresh retry expire : U32), (newServer cfg s).processRead st st c pkt = .ok (c', e) ∧ (sent e).map Pdu.encode = bs.map GoRes.ok ∧
      Stream bs.flatten (.cacheResponse 1 (sessionOf s 1) :: data ++ [.endOfData 1 (sessionOf s 1) st.serial refresh retry expire]) ∧
      ∀ l : List (Int × Pdu), l.map (·.2) = data → Carries l (Wanted wide now vs ks) := by
  obtain ⟨c', e, bs, data, refresh, retry, expire, h1, h2, h3, h4, -, h6, h7⟩ := C27_end_to_end h hc hp ha hr hst henc
  rw [hv] at h7
  rw [h7] at h3 h4
  refine ⟨c', e, bs, data, refresh, retry, expire, h1, h2, h3, fun l hl => ⟨fun x hx => ?_, fun x hx => h6 _ (hl ▸ List.mem_map_of_mem hx), fun r => ?_⟩⟩
  · have := h6 x.2 (hl ▸ List.mem_map_of_mem hx)
    unfold IsData
    cases hx2 : x.2 <;> rw [hx2] at this <;> simp only [pduFlag, reduceCtorEq] at this <;> rfl
  · rw [← hserved]
    have : l.filterMap (fun x => pduRecord x.2) = data.filterMap pduRecord := by
      rw [← hl, List.filterMap_map]
      rfl
    rw [this, h4, hkeys, List.filter_eq_self.mpr]
    intro x _
    cases x <;> rfl

/-- A file with a VRP, a default route, an expired VRP, a VRP given twice of which one has expired, and a key in upper case. -/
def exCheckedVrps : List VRPJson := [⟨"10.0.0.0/8".toList, 24, .uint32 1, [], none⟩, ⟨"0.0.0.0/0".toList, 24, .uint32 1, [], none⟩, ⟨"11.0.0.0/8".toList, 8, .uint32 1, [], some 50⟩,
  ⟨"12.0.0.0/8".toList, 8, .uint32 1, [], some 50⟩, ⟨"12.0.0.0/8".toList, 8, .uint32 1, [], some 500⟩]
/-- The key in upper case. -/
def exCheckedKeys : List BgpSecKeyJson := [⟨65001, none, [], [88, 89], "ABCD".toList⟩]
/-- What stayrtr sends for that file at time 100. -/
def exCheckedSession : List (Int × Pdu) := [(100, .ipv4Prefix 1 1 ⟨.v4 0x0a000000, 9⟩ 24 1), (100, .ipv4Prefix 1 1 ⟨.v4 0x0c000000, 9⟩ 8 1), (101, .routerKey 1 1 [0xab, 0xcd] 65001 [88, 89])]

/-- The hypotheses are met by such a file and session. -/
example : Carries exCheckedSession (Wanted (fun _ => 0) 100 exCheckedVrps exCheckedKeys) ∧ (∀ b ∈ exCheckedKeys, ∃ ski, HexText b.ski ski) := by
  refine ⟨⟨by unfold IsData; decide +kernel, by decide +kernel, fun r => ?_⟩, fun b hb => ?_⟩
  · rw [← records_sds (fun _ => 0) insertionSorter_ok 100]
    have h1 : exCheckedSession.filterMap (fun x => pduRecord x.2) = [.vrp ⟨.v4 0x0a000000, 9⟩ 24 1, .vrp ⟨.v4 0x0c000000, 9⟩ 8 1, .brk 65001 [0xab, 0xcd] [88, 89]] := by decide +kernel
    have h2 : records (processData (fun _ => 0) insertionSorter 100 exCheckedVrps exCheckedKeys).sds = [.vrp ⟨.v4 0x0a000000, 9⟩ 24 1, .vrp ⟨.v4 0x0c000000, 9⟩ 8 1, .brk 65001 [0xab, 0xcd] [88, 89]] := by decide +kernel
    rw [h1, h2]
  · have : b = ⟨65001, none, [], [88, 89], "ABCD".toList⟩ := by simpa [exCheckedKeys] using hb
    subst this
    exact ⟨_, (hexText_iff _ _).mp (by decide +kernel : hexDecode "ABCD".toList = ([0xab, 0xcd], true))⟩

/-- **C117.** So a stayrtr that does all it should does not keep rtrmon quiet: with this file three names are listed as missing over RTR and one as missing in the file, however long both sides have been the same, and they
are counted above every threshold (here two days after the file was first seen). -/
theorem C117_quiet_false : let m := mapAfter (fun _ => 0) 3600 [(172800, .file exCheckedVrps exCheckedKeys), (100, .file exCheckedVrps exCheckedKeys)]
    let w := (MonState.init.run true (fullSync 100 7 5 exCheckedSession)).1.client.vrps
    (monDiff m w).map (·.1) = ["0.0.0.0/0-24-1".toList, "11.0.0.0/8-8-1".toList, "ABCD-65001-XY".toList] ∧ (monDiff w m).map (·.1) = ["abcd-65001-XY".toList] ∧
    countUnmatched (monDiff m w) w 86400 = 3 ∧ countUnmatched (monDiff w m) m 86400 = 1 := by decide +kernel

/-- A source with `-primary.rtr.break` after a session with this file: it waits for the next one. -/
example : (MonState.init.run true (fullSync 100 7 5 exCheckedSession)).1.session.connected = false ∧ (MonState.init.run true (fullSync 100 7 5 exCheckedSession)).1.ended = false ∧
    ∀ e ∈ fullSync 100 7 5 exCheckedSession, RealEvent e := by
  refine ⟨by decide +kernel, by decide +kernel, fun e he => ?_⟩
  simp only [fullSync, dataEvents, exCheckedSession, List.map_cons, List.map_nil, List.cons_append, List.nil_append, List.mem_cons, List.not_mem_nil, or_false] at he
  rcases he with rfl | rfl | rfl | rfl | rfl | rfl
  · trivial
  · intro r hr; cases hr
  · intro r hr; cases hr; exact ⟨by decide, by decide⟩
  · intro r hr; cases hr; exact ⟨by decide, by decide⟩
  · intro r hr; cases hr; trivial
  · intro r hr; cases hr

/-- **C117.** After a reconnect it is worse. A VRP is taken out of the file, stayrtr stops serving it and says so in a new session: for rtrmon it is still there over RTR and is listed as missing in the file. Another VRP is added
to the file that the server once had and serves no more: it is not listed. -/
theorem C117_reconnect_false :
    let gone := mapAfter (fun _ => 0) 3600 [(172800, .file [exCheckedVrps[0]] []), (100, .file exCheckedVrps exCheckedKeys)]
    let w := (MonState.init.run true (fullSync 100 7 5 exCheckedSession ++ fullSync 172800 7 6 (exCheckedSession.take 1))).1.client.vrps
    Carries (exCheckedSession.take 1) (Wanted (fun _ => 0) 172800 [exCheckedVrps[0]] []) ∧
    (monDiff w gone).map (·.1) = ["12.0.0.0/8-8-1".toList, "abcd-65001-XY".toList] ∧ countUnmatched (monDiff w gone) gone 86400 = 2 ∧
    (let more := mapAfter (fun _ => 0) 3600 [(172800, .file [exCheckedVrps[0], exCheckedVrps[4]] [])]
     monDiff more w = []) := by
  refine ⟨⟨by unfold IsData; decide +kernel, by decide +kernel, fun r => ?_⟩, by decide +kernel, by decide +kernel, by decide +kernel⟩
  rw [← records_sds (fun _ => 0) insertionSorter_ok 172800]
  have h1 : (exCheckedSession.take 1).filterMap (fun x => pduRecord x.2) = [.vrp ⟨.v4 0x0a000000, 9⟩ 24 1] := by decide +kernel
  have h2 : records (processData (fun _ => 0) insertionSorter 172800 [exCheckedVrps[0]] []).sds = [.vrp ⟨.v4 0x0a000000, 9⟩ 24 1] := by decide +kernel
  rw [h1, h2]

end StayRTR
