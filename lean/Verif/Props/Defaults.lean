import Verif.Props.Documented
import Verif.Props.Literals
import Verif.Props.Durations

/-!
# C167: every flag sets its own setting

What the three programs work with, setting by setting, in terms of the last text given for the flag of that setting, or of the default that is documented. The tables of names and defaults below are written from the documentation
(README.md:336-, the texts of the flags), not from the model.
-/

namespace StayRTR

namespace Spec

/-- The setting has the value that is read from the last text given for the flag, or the default if none is given. -/
def Has {α : Type} (read : Str → α → Prop) (items : List (Str × Str)) (n : Str) (dflt v : α) : Prop := match lastGiven n items with
  | none => v = dflt
  | some t => read t v

/-- A flag with a text. -/
def HasText (items : List (Str × Str)) (n dflt v : Str) : Prop := Has (fun t v => v = t) items n dflt v

/-- A switch. -/
def HasSwitch (items : List (Str × Str)) (n : Str) (dflt v : Bool) : Prop := Has Switch items n dflt v

/-- A number. -/
def HasNumber (items : List (Str × Str)) (n : Str) (dflt v : Int) : Prop := Has SignedLiteral items n dflt v

/-- A duration in nanoseconds (C158 says how it is read). -/
def HasDuration (items : List (Str × Str)) (n : Str) (dflt v : Int) : Prop := Has (fun t v => parseDuration goFrac t = some v) items n dflt v

/-- An interval in the unsigned 32 bits of the End of Data PDU; zero stands for the default. -/
def HasTimer (items : List (Str × Str)) (n : Str) (dflt : Nat) (v : U32) : Prop :=
  ∃ k, HasNumber items n dflt k ∧ v = if k % 2 ^ 32 = 0 then BitVec.ofNat 32 dflt else BitVec.ofInt 32 k

/-- The settings of stayrtr are those of the command line. -/
structure StayrtrAs (o : Outside) (sid : U16) (items : List (Str × Str)) (s : StayrtrSetup) : Prop where
  level : ∃ t, HasText items "loglevel".toList "info".toList t ∧ s.level = parseLevel t
  verbose : HasSwitch items "log.verbose".toList true s.verbose
  version : ∃ k, HasNumber items "protocol".toList 1 k ∧ s.server.baseVersion = (if k = 1 then 1 else 0) ∧ s.server.sessId = if k = 1 then [sid, sid + 100] else [sid]
  refresh : HasTimer items "rtr.refresh".toList 3600 s.server.refresh
  retry : HasTimer items "rtr.retry".toList 600 s.server.retry
  expire : HasTimer items "rtr.expire".toList 7200 s.server.expire
  enforceVersion : HasSwitch items "enforce.version".toList false s.server.enforceVersion
  disableBGPSec : HasSwitch items "disable.bgpsec".toList false s.server.disableBGPSec
  /-- whatever `-maxconn` and `-enable.nodelay` say (C70, C161) -/
  constant : s.server.maxconn = 0 ∧ s.server.enableNODELAY = false ∧ s.keepDifference = 3
  http : ∃ addr path exp upd, HasText items "metrics.addr".toList ":9847".toList addr ∧ HasText items "metrics.path".toList "/metrics".toList path ∧
    HasText items "export.path".toList "/rpki.json".toList exp ∧ HasSwitch items "update.endpoint".toList false upd ∧
    s.http = if addr = [] then none else some ⟨addr, path, if exp = [] then none else some exp, upd⟩
  notify : HasSwitch items "notifications".toList true s.notify
  checktime : HasSwitch items "checktime".toList true s.checktime
  userAgent : HasText items "useragent".toList o.userAgent s.userAgent
  mime : HasText items "mime".toList "application/json".toList s.mime
  etags : HasSwitch items "etag".toList true s.etags
  lastModified : HasSwitch items "last.modified".toList true s.lastModified
  cache : HasText items "cache".toList "https://console.rpki-client.org/rpki.json".toList s.cache
  slurm : ∃ file again, HasText items "slurm".toList [] file ∧ HasSwitch items "slurm.refresh".toList true again ∧ s.slurm = if file = [] then none else some (file, again)
  tcp : ∃ addr, HasText items "bind".toList ":8282".toList addr ∧ s.tcp = if addr = [] then none else some addr
  tls : ∃ addr cert key, HasText items "tls.bind".toList [] addr ∧ HasText items "tls.cert".toList [] cert ∧ HasText items "tls.key".toList [] key ∧
    s.tls = if addr = [] then none else some (addr, cert, key)
  ssh : ∃ addr hostKey byPassword user password byKey bypass keys, HasText items "ssh.bind".toList [] addr ∧ HasText items "ssh.key".toList "private.pem".toList hostKey ∧
    HasSwitch items "ssh.method.password".toList false byPassword ∧ HasText items "ssh.auth.user".toList "rpki".toList user ∧ HasText items "ssh.auth.password".toList [] password ∧
    HasSwitch items "ssh.method.key".toList false byKey ∧ HasSwitch items "ssh.auth.key.bypass".toList false bypass ∧ HasText items "ssh.auth.key.file".toList [] keys ∧
    s.ssh = if addr = [] then none else some
      { addr := addr, hostKey := hostKey,
        password := if byPassword = true then some (user, if password = [] then o.env "STAYRTR_SSH_PASSWORD".toList else password) else none,
        keys := if byKey = true then some (if keys = [] then none else some keys, bypass) else none,
        noClientAuth := decide (byPassword = false ∧ byKey = false) }
  interval : ∃ k, HasNumber items "refresh".toList 600 k ∧ s.interval = BitVec.ofInt 64 k
  address : ¬ (s.tcp = none ∧ s.tls = none ∧ s.ssh = none)

/-- A source of rtrmon, with the letters in front of its flags and at the end of its variables, and its documented default. -/
structure MonSourceAs (o : Outside) (items : List (Str × Str)) (pfx number host : Str) (s : MonSource) : Prop where
  host : HasText items (pfx ++ ".host".toList) host s.path
  refresh : HasDuration items (pfx ++ ".refresh".toList) (600 * 10 ^ 9) s.refresh
  breakRTR : HasSwitch items (pfx ++ ".rtr.break".toList) false s.breakRTR
  user : HasText items (pfx ++ ".ssh.auth.user".toList) "rpki".toList s.transport.user
  method : ∃ t, HasText items (pfx ++ ".ssh.method".toList) "none".toList t ∧ (t, s.method) ∈ [("none".toList, SshMethod.none), ("password".toList, .password), ("key".toList, .key)]
  key : ∃ file, HasText items (pfx ++ ".ssh.auth.key".toList) "id_rsa".toList file ∧
    (s.method = .key → if file = [] then s.keyBytes = utf8Str (o.env ("RTR_SSH_KEY_".toList ++ number)) else o.read file = some s.keyBytes) ∧ (s.method ≠ .key → s.keyBytes = [])

/-- The settings of rtrmon are those of the command line. -/
structure MonAs (o : Outside) (items : List (Str × Str)) (s : MonSetup) : Prop where
  level : ∃ t, HasText items "loglevel".toList "info".toList t ∧ s.level = parseLevel t
  thresholds : Has (fun t l => thresholdsSet t = some l) items "visibility.thresholds".toList [0, 56, 256, 596, 851, 1024, 1706, 3411] s.thresholds
  grace : ∃ k m, HasDuration items "grace.period".toList (3600 * 10 ^ 9) k ∧ s.thresholds.getLast? = some m ∧ s.grace = max k (m * 10 ^ 9)
  conditional : HasSwitch items "disable.conditional.requests".toList false (!s.conditional)
  userAgent : HasText items "useragent".toList o.userAgent s.userAgent
  addr : HasText items "addr".toList ":9866".toList s.addr
  outFile : HasText items "file".toList "diff.json".toList s.outFile
  metricsPath : HasText items "metrics".toList "/metrics".toList s.metricsPath
  primary : MonSourceAs o items "primary".toList "1".toList "tcp://rtr.rpki.cloudflare.com:8282".toList s.primary
  secondary : MonSourceAs o items "secondary".toList "2".toList "https://rpki.cloudflare.com/rpki.json".toList s.secondary
  primaryPassword : ∃ p, HasText items "primary.ssh.auth.password".toList [] p ∧ s.primary.transport.password = if p = [] then o.env "RTR_SSH_PASSWORD_1".toList else p
  /-- for the method `password` without the environment, against the text of the flag (C96) -/
  secondaryPassword : ∃ p, HasText items "secondary.ssh.auth.password".toList [] p ∧
    s.secondary.transport.password = if s.secondary.method = .key then o.env "RTR_SSH_PASSWORD_2".toList else p
  oneOff : s.oneOff = false

/-- The settings of rtrdump are those of the command line. -/
structure DumpAs (o : Outside) (items : List (Str × Str)) (s : DumpSetup) : Prop where
  level : ∃ t, HasText items "loglevel".toList "info".toList t ∧ s.level = parseLevel t
  dataPdu : HasSwitch items "datapdu".toList false s.dataPdu
  version : ∃ k, HasNumber items "rtr.version".toList 1 k ∧ k ≤ 1 ∧ s.version = if k = 1 then 1 else 0
  query : ∃ b session serial, HasSwitch items "serial".toList false b ∧ HasNumber items "session.id".toList 0 session ∧ HasNumber items "serial.value".toList 0 serial ∧
    s.query = if b = true then some (BitVec.ofInt 16 session, BitVec.ofInt 32 serial) else none
  addr : HasText items "connect".toList "127.0.0.1:8282".toList s.addr
  file : ∃ f, HasText items "file".toList "output.json".toList f ∧ s.file = if f = [] then none else some f
  conn : ∃ kind, HasText items "type".toList "plain".toList kind ∧
    ((kind = "plain".toList ∧ s.conn = .plain) ∨
     (kind = "tls".toList ∧ ∃ v, HasSwitch items "tls.validate".toList true v ∧ s.conn = .tls v) ∨
     (kind = "ssh".toList ∧ ∃ user auth v fingerprint, HasText items "ssh.auth.user".toList "rpki".toList user ∧ HasSwitch items "ssh.validate".toList false v ∧
       HasText items "ssh.validate.key".toList [] fingerprint ∧ s.conn = .ssh user auth (if v = true then some fingerprint else none) ∧
       ∃ m, HasText items "ssh.method".toList "none".toList m ∧
        ((m = "none".toList ∧ auth = .none) ∨
         (m = "password".toList ∧ ∃ p, HasText items "ssh.auth.password".toList [] p ∧ auth = .password (if p = [] then o.env "RTR_SSH_PASSWORD".toList else p)) ∨
         (m = "key".toList ∧ ∃ file b, HasText items "ssh.auth.key".toList "id_rsa".toList file ∧ (if file = [] then b = utf8Str (o.env "RTR_SSH_KEY".toList) else o.read file = some b) ∧
           o.privateKey b = true ∧ auth = .key b))))

end Spec

open Spec

/-! ## A flag by its name -/

section Settled
variable {fs fs' : FlagSet} {items : List (Str × Str)} (h : Settled (FlagValue.set goFrac) fs.get items fs'.get) {n : Str}
include h

theorem settled_text {d : Str} (hg : fs.get n = some (.str d)) : HasText items n d (fs'.str n) := by
  have hn := h.2 n
  unfold HasText Has
  cases hl : lastGiven n items with
  | none => rw [hl] at hn; simp only at hn ⊢; unfold FlagSet.str; rw [hn, hg]
  | some t =>
    rw [hl] at hn
    simp only at hn ⊢
    obtain ⟨v, w, hv, hw, ha⟩ := hn
    rw [hg] at hv; cases hv
    have := ((C157_values goFrac t w).2.2 d).mp hw
    subst this
    unfold FlagSet.str; rw [ha]

theorem settled_switch {d : Bool} (hg : fs.get n = some (.bool d)) : HasSwitch items n d (fs'.bool n) := by
  have hn := h.2 n
  unfold HasSwitch Has
  cases hl : lastGiven n items with
  | none => rw [hl] at hn; simp only at hn ⊢; unfold FlagSet.bool; rw [hn, hg]
  | some t =>
    rw [hl] at hn
    simp only at hn ⊢
    obtain ⟨v, w, hv, hw, ha⟩ := hn
    rw [hg] at hv; cases hv
    obtain ⟨b, hb, rfl⟩ := ((C157_values goFrac t w).1 d).mp hw
    unfold FlagSet.bool; rw [ha]; exact hb

theorem settled_number {d : Int} (hg : fs.get n = some (.int d)) : HasNumber items n d (fs'.int n) := by
  have hn := h.2 n
  unfold HasNumber Has
  cases hl : lastGiven n items with
  | none => rw [hl] at hn; simp only at hn ⊢; unfold FlagSet.int; rw [hn, hg]
  | some t =>
    rw [hl] at hn
    simp only at hn ⊢
    obtain ⟨v, w, hv, hw, ha⟩ := hn
    rw [hg] at hv; cases hv
    obtain ⟨b, hb, rfl⟩ := ((C157_values goFrac t w).2.1 d).mp hw
    unfold FlagSet.int; rw [ha]; exact hb

theorem settled_duration {d : Int} (hg : fs.get n = some (.duration d)) : HasDuration items n d (fs'.duration n) := by
  have hn := h.2 n
  unfold HasDuration Has
  cases hl : lastGiven n items with
  | none => rw [hl] at hn; simp only at hn ⊢; unfold FlagSet.duration; rw [hn, hg]
  | some t =>
    rw [hl] at hn
    simp only at hn ⊢
    obtain ⟨v, w, hv, hw, ha⟩ := hn
    rw [hg] at hv; cases hv
    have hw' : (parseDuration goFrac t).map FlagValue.duration = some w := hw
    obtain ⟨k, hk, rfl⟩ := Option.map_eq_some_iff.mp hw'
    unfold FlagSet.duration; rw [ha]; exact hk

theorem settled_thresholds {d : List Int} (hg : fs.get "visibility.thresholds".toList = some (.thresholds d)) :
    Has (fun t l => thresholdsSet t = some l) items "visibility.thresholds".toList d fs'.thresholds := by
  have hn := h.2 "visibility.thresholds".toList
  unfold Has
  cases hl : lastGiven "visibility.thresholds".toList items with
  | none => rw [hl] at hn; simp only at hn ⊢; unfold FlagSet.thresholds; rw [hn, hg]
  | some t =>
    rw [hl] at hn
    simp only at hn ⊢
    obtain ⟨v, w, hv, hw, ha⟩ := hn
    rw [hg] at hv; cases hv
    have hw' : (thresholdsSet t).map FlagValue.thresholds = some w := hw
    obtain ⟨k, hk, rfl⟩ := Option.map_eq_some_iff.mp hw'
    unfold FlagSet.thresholds; rw [ha]; exact hk

end Settled

theorem stayrtr_get (ua : Str) {n : Str} (hn : n ≠ "useragent".toList) {v : FlagValue} (h : (stayrtrFlags []).get n = some v) : (stayrtrFlags ua).get n = some v := by
  rw [(userAgent_but ua).1.1 n hn, h]

theorem rtrmon_get (ua : Str) {n : Str} (hn : n ≠ "useragent".toList) {v : FlagValue} (h : (rtrmonFlags []).get n = some v) : (rtrmonFlags ua).get n = some v := by
  rw [(userAgent_but ua).2.1 n hn, h]

theorem userAgent_get (ua : Str) : (stayrtrFlags ua).get "useragent".toList = some (.str ua) ∧ (rtrmonFlags ua).get "useragent".toList = some (.str ua) := by
  have key : ∀ (l r : FlagSet) (n : Str) (s : Str), (∀ x ∈ l, x.1 ≠ n) → FlagSet.get (l ++ (n, .str s) :: r) n = some (.str s) := by
    intro l r n s hl
    have hn : l.find? (fun x => x.1 == n) = none := List.find?_eq_none.mpr (fun x hx => by simpa using hl x hx)
    unfold FlagSet.get; simp [List.find?_append, hn]
  exact ⟨key ((stayrtrFlags []).take 28) ((stayrtrFlags []).drop 29) _ ua (by decide +kernel), key ((rtrmonFlags []).take 4) ((rtrmonFlags []).drop 5) _ ua (by decide +kernel)⟩

theorem ofInt32_eq_zero (k : Int) : BitVec.ofInt 32 k = 0 ↔ k % 2 ^ 32 = 0 := by
  rw [← BitVec.toNat_inj, BitVec.toNat_ofInt]
  have := Int.emod_nonneg k (b := 2 ^ 32) (by decide)
  show (k % ((2 ^ 32 : Nat) : Int)).toNat = 0 ↔ _
  push_cast
  omega

theorem timer {items : List (Str × Str)} {n : Str} {d : Nat} {k : Int} (h : HasNumber items n d k) : HasTimer items n d (if BitVec.ofInt 32 k ≠ 0 then BitVec.ofInt 32 k else BitVec.ofNat 32 d) := by
  refine ⟨k, h, ?_⟩
  by_cases hz : k % 2 ^ 32 = 0
  · rw [if_pos hz, if_neg (by rw [ne_eq, not_not]; exact (ofInt32_eq_zero k).mpr hz)]
  · rw [if_neg hz, if_pos (fun h => hz ((ofInt32_eq_zero k).mp h))]

/-! ## stayrtr -/

/-- **C167** Every setting of stayrtr is that of its own flag, as last given, or the documented default. -/
theorem C167_stayrtr {o : Outside} {sid : U16} {args : List Str} {s : StayrtrSetup} (h : stayrtrProgram o sid args = .runs s) :
    ∃ items, Reads (fun n => (stayrtrFlags []).get n ≠ none) (IsSwitch (stayrtrFlags []).get) args items ∧ StayrtrAs o sid items s := by
  unfold stayrtrProgram at h
  split at h
  · cases h
  rename_i fs hfs
  split at h
  · cases h
  rename_i haddr
  cases h
  obtain ⟨items, hr, hs, _⟩ := C157_read hfs
  have e : (fun n => (stayrtrFlags o.userAgent).get n ≠ none) = fun n => (stayrtrFlags []).get n ≠ none := by
    funext n
    by_cases hn : n = "useragent".toList
    · subst hn
      rw [(userAgent_get o.userAgent).1, (userAgent_get []).1]; simp
    · rw [(userAgent_but o.userAgent).1.1 n hn]
  have e' : IsSwitch (stayrtrFlags o.userAgent).get = IsSwitch (stayrtrFlags []).get := by
    funext n
    unfold IsSwitch
    by_cases hn : n = "useragent".toList
    · subst hn
      rw [(userAgent_get o.userAgent).1, (userAgent_get []).1]; simp
    · rw [(userAgent_but o.userAgent).1.1 n hn]
  rw [e, e'] at hr
  have tx : ∀ {n d : Str}, n ≠ "useragent".toList → (stayrtrFlags []).get n = some (.str d) → HasText items n d (fs.str n) := fun hn hg => settled_text hs (stayrtr_get _ hn hg)
  have sw : ∀ {n : Str} {d : Bool}, n ≠ "useragent".toList → (stayrtrFlags []).get n = some (.bool d) → HasSwitch items n d (fs.bool n) := fun hn hg => settled_switch hs (stayrtr_get _ hn hg)
  have nu : ∀ {n : Str} {d : Int}, n ≠ "useragent".toList → (stayrtrFlags []).get n = some (.int d) → HasNumber items n d (fs.int n) := fun hn hg => settled_number hs (stayrtr_get _ hn hg)
  refine ⟨items, hr, ?_⟩
  constructor
  · exact ⟨_, tx (by decide +kernel) (by decide +kernel), rfl⟩
  · exact sw (by decide +kernel) (by decide +kernel)
  · refine ⟨_, nu (by decide +kernel) (by decide +kernel), ?_⟩
    show protoverToLib (fs.int "protocol".toList) = _ ∧ (List.range ((protoverToLib (fs.int "protocol".toList)).toNat + 1)).map (fun i => sid + BitVec.ofNat 16 (100 * i)) = _
    generalize fs.int "protocol".toList = k
    unfold protoverToLib
    by_cases h1 : k = 1
    · subst h1; simp [List.range_succ]
    · simp only [if_neg h1, ite_self]; simp
  · exact timer (nu (d := 3600) (by decide +kernel) (by decide +kernel))
  · exact timer (nu (d := 600) (by decide +kernel) (by decide +kernel))
  · exact timer (nu (d := 7200) (by decide +kernel) (by decide +kernel))
  · exact sw (by decide +kernel) (by decide +kernel)
  · exact sw (by decide +kernel) (by decide +kernel)
  · exact ⟨rfl, rfl, rfl⟩
  · exact ⟨_, _, _, _, tx (by decide +kernel) (by decide +kernel), tx (by decide +kernel) (by decide +kernel), tx (by decide +kernel) (by decide +kernel), sw (by decide +kernel) (by decide +kernel), rfl⟩
  · exact sw (by decide +kernel) (by decide +kernel)
  · exact sw (by decide +kernel) (by decide +kernel)
  · exact settled_text hs (userAgent_get _).1
  · exact tx (by decide +kernel) (by decide +kernel)
  · exact sw (by decide +kernel) (by decide +kernel)
  · exact sw (by decide +kernel) (by decide +kernel)
  · exact tx (by decide +kernel) (by decide +kernel)
  · exact ⟨_, _, tx (by decide +kernel) (by decide +kernel), sw (by decide +kernel) (by decide +kernel), rfl⟩
  · exact ⟨_, tx (by decide +kernel) (by decide +kernel), rfl⟩
  · exact ⟨_, _, _, tx (by decide +kernel) (by decide +kernel), tx (by decide +kernel) (by decide +kernel), tx (by decide +kernel) (by decide +kernel), rfl⟩
  · refine ⟨_, _, _, _, _, _, _, _, tx (by decide +kernel) (by decide +kernel), tx (by decide +kernel) (by decide +kernel), sw (by decide +kernel) (by decide +kernel), tx (by decide +kernel) (by decide +kernel),
      tx (by decide +kernel) (by decide +kernel), sw (by decide +kernel) (by decide +kernel), sw (by decide +kernel) (by decide +kernel), tx (by decide +kernel) (by decide +kernel), ?_⟩
    show ifGiven _ _ = _
    unfold ifGiven
    have : ∀ a b : Bool, (!(a || b)) = decide (b = false ∧ a = false) := by decide
    rw [this]
  · exact ⟨_, nu (by decide +kernel) (by decide +kernel), rfl⟩
  · intro hh
    apply haddr
    have g : ∀ {α : Type} {t : Str} {a : α}, ifGiven t a = none → t = [] := by
      intro α t a h
      unfold ifGiven at h
      split at h
      · assumption
      · cases h
    exact ⟨g hh.1, g hh.2.1, g hh.2.2⟩

/-! ## rtrmon -/

theorem monSource_transport {o : Outside} {fs : FlagSet} {pfx number : Str} {tr : MonFlags → MonTransport} {s : MonSource} (hs : fs.monSource o pfx number tr = some s) :
    s.transport = tr (fs.source o pfx number) ∧ authToId (fs.str (pfx ++ ".ssh.method".toList)) = some s.method := by
  unfold FlagSet.monSource at hs
  split at hs
  · cases hs
  rename_i m hm
  split at hs
  · cases hs
  cases hs
  exact ⟨rfl, hm⟩

theorem authToId_key {t : Str} {m : SshMethod} (h : authToId t = some m) : t = "key".toList ↔ m = .key := by
  unfold authToId at h
  split at h
  · rename_i e; cases h; subst e; decide +kernel
  · split at h
    · rename_i e; cases h; subst e; decide +kernel
    · split at h
      · rename_i e; cases h; subst e; decide +kernel
      · cases h

theorem monSource_as {o : Outside} {fs fs' : FlagSet} {items : List (Str × Str)} (h : Settled (FlagValue.set goFrac) fs.get items fs'.get) {pfx number host : Str} {tr : MonFlags → MonTransport} {s : MonSource}
    (h1 : fs.get (pfx ++ ".host".toList) = some (.str host)) (h2 : fs.get (pfx ++ ".refresh".toList) = some (.duration (600 * 1000000000))) (h3 : fs.get (pfx ++ ".rtr.break".toList) = some (.bool false))
    (h6 : fs.get (pfx ++ ".ssh.auth.user".toList) = some (.str "rpki".toList)) (htr : ∀ f, (tr f).user = f.user)
    (h4 : fs.get (pfx ++ ".ssh.method".toList) = some (.str "none".toList)) (h5 : fs.get (pfx ++ ".ssh.auth.key".toList) = some (.str "id_rsa".toList)) (hs : fs'.monSource o pfx number tr = some s) :
    MonSourceAs o items pfx number host s := by
  have hu : s.transport.user = fs'.str (pfx ++ ".ssh.auth.user".toList) := by rw [(monSource_transport hs).1, htr]; rfl
  unfold FlagSet.monSource at hs
  split at hs
  · cases hs
  rename_i m hm
  split at hs
  · cases hs
  rename_i k hk
  cases hs
  refine ⟨settled_text h h1, settled_duration h h2, settled_switch h h3, by rw [hu]; exact settled_text h h6, ⟨_, settled_text h h4, ?_⟩, ⟨_, settled_text h h5, ?_, ?_⟩⟩
  · unfold authToId at hm
    split at hm
    · cases hm; rename_i e; rw [e]; simp
    · split at hm
      · cases hm; rename_i e; rw [e]; simp
      · split at hm
        · cases hm; rename_i e; rw [e]; simp
        · cases hm
  · intro hmk
    dsimp only at hmk ⊢
    rw [if_pos hmk] at hk
    unfold keyBytesOf at hk
    split at hk
    · rename_i e; rw [if_pos e]; exact (Option.some.inj hk).symm
    · rename_i e; rw [if_neg e]; exact hk
  · intro hmk
    dsimp only at hmk ⊢
    rw [if_neg hmk] at hk
    exact (Option.some.inj hk).symm

/-- **C167** Every setting of rtrmon is that of its own flag, as last given, or the documented default; the grace period is at least the last threshold. -/
theorem C167_rtrmon {o : Outside} {args : List Str} {s : MonSetup} (h : rtrmonProgram o args = .runs s) :
    ∃ items, Reads (fun n => (rtrmonFlags []).get n ≠ none) (IsSwitch (rtrmonFlags []).get) args items ∧ MonAs o items s := by
  unfold rtrmonProgram at h
  split at h
  · cases h
  rename_i fs hfs
  obtain ⟨items, hr, hs, _⟩ := C157_read hfs
  have e : (fun n => (rtrmonFlags o.userAgent).get n ≠ none) = fun n => (rtrmonFlags []).get n ≠ none := by
    funext n
    by_cases hn : n = "useragent".toList
    · subst hn
      rw [(userAgent_get o.userAgent).2, (userAgent_get []).2]; simp
    · rw [(userAgent_but o.userAgent).2.1 n hn]
  have e' : IsSwitch (rtrmonFlags o.userAgent).get = IsSwitch (rtrmonFlags []).get := by
    funext n
    unfold IsSwitch
    by_cases hn : n = "useragent".toList
    · subst hn
      rw [(userAgent_get o.userAgent).2, (userAgent_get []).2]; simp
    · rw [(userAgent_but o.userAgent).2.1 n hn]
  rw [e, e'] at hr
  have tx : ∀ {n d : Str}, n ≠ "useragent".toList → (rtrmonFlags []).get n = some (.str d) → HasText items n d (fs.str n) := fun hn hg => settled_text hs (rtrmon_get _ hn hg)
  have sw : ∀ {n : Str} {d : Bool}, n ≠ "useragent".toList → (rtrmonFlags []).get n = some (.bool d) → HasSwitch items n d (fs.bool n) := fun hn hg => settled_switch hs (rtrmon_get _ hn hg)
  unfold FlagSet.rtrmon at h
  split at h
  · cases h
  rename_i t ht
  split at h
  swap
  · cases h
  rename_i p q hp hq
  cases h
  refine ⟨items, hr, ?_⟩
  constructor
  · exact ⟨_, tx (by decide +kernel) (by decide +kernel), rfl⟩
  · exact settled_thresholds hs (rtrmon_get _ (by decide +kernel) (by decide +kernel))
  · refine ⟨_, _, settled_duration hs (rtrmon_get _ (by decide +kernel) (by decide +kernel)), ht, ?_⟩
    dsimp only
    rw [Int.mul_comm t]
    generalize fs.duration "grace.period".toList = d
    norm_num
    split <;> omega
  · dsimp only
    rw [Bool.not_not]
    exact sw (by decide +kernel) (by decide +kernel)
  · exact settled_text hs (userAgent_get _).2
  · exact tx (by decide +kernel) (by decide +kernel)
  · exact tx (by decide +kernel) (by decide +kernel)
  · exact tx (by decide +kernel) (by decide +kernel)
  · exact monSource_as hs (rtrmon_get _ (by decide +kernel) (by decide +kernel)) (rtrmon_get _ (by decide +kernel) (by decide +kernel)) (rtrmon_get _ (by decide +kernel) (by decide +kernel))
      (rtrmon_get _ (by decide +kernel) (by decide +kernel)) (fun _ => rfl) (rtrmon_get _ (by decide +kernel) (by decide +kernel)) (rtrmon_get _ (by decide +kernel) (by decide +kernel)) hp
  · exact monSource_as hs (rtrmon_get _ (by decide +kernel) (by decide +kernel)) (rtrmon_get _ (by decide +kernel) (by decide +kernel)) (rtrmon_get _ (by decide +kernel) (by decide +kernel))
      (rtrmon_get _ (by decide +kernel) (by decide +kernel)) (fun _ => rfl) (rtrmon_get _ (by decide +kernel) (by decide +kernel)) (rtrmon_get _ (by decide +kernel) (by decide +kernel)) hq
  · refine ⟨_, tx (by decide +kernel) (by decide +kernel), ?_⟩
    dsimp only
    rw [(monSource_transport hp).1]
    rfl
  · refine ⟨_, tx (by decide +kernel) (by decide +kernel), ?_⟩
    dsimp only
    rw [(monSource_transport hq).1, if_congr (authToId_key (monSource_transport hq).2).symm rfl rfl]
    rfl
  · rfl

/-! ## rtrdump -/

/-- **C167** Every setting of rtrdump is that of its own flag, as last given, or the documented default. -/
theorem C167_rtrdump {o : Outside} {args : List Str} {s : DumpSetup} (h : rtrdumpProgram o args = .runs s) :
    ∃ items, Reads (fun n => rtrdumpFlags.get n ≠ none) (IsSwitch rtrdumpFlags.get) args items ∧ DumpAs o items s := by
  unfold rtrdumpProgram at h
  split at h
  · cases h
  rename_i fs hfs
  obtain ⟨items, hr, hs, _⟩ := C157_read hfs
  unfold FlagSet.rtrdump at h
  split at h
  · cases h
  rename_i v hv
  split at h
  · cases h
  rename_i auth hauth
  split at h
  · cases h
  rename_i conn hconn
  cases h
  refine ⟨items, hr, ?_⟩
  constructor
  · exact ⟨_, settled_text hs (by decide +kernel), rfl⟩
  · exact settled_switch hs (by decide +kernel)
  · refine ⟨_, settled_number hs (d := 1) (by decide +kernel), ?_⟩
    unfold dumpVersion at hv
    split at hv
    · cases hv
    · rename_i e
      cases hv
      exact ⟨Int.not_lt.mp e, rfl⟩
  · exact ⟨_, _, _, settled_switch hs (by decide +kernel), settled_number hs (by decide +kernel), settled_number hs (by decide +kernel), rfl⟩
  · exact settled_text hs (by decide +kernel)
  · exact ⟨_, settled_text hs (by decide +kernel), rfl⟩
  · refine ⟨_, settled_text hs (by decide +kernel), ?_⟩
    unfold FlagSet.dumpConn at hconn
    dsimp only
    split at hconn
    · rename_i e; cases hconn; exact .inl ⟨e, rfl⟩
    · split at hconn
      · rename_i e; cases hconn; exact .inr (.inl ⟨e, _, settled_switch hs (by decide +kernel), rfl⟩)
      · split at hconn
        · rename_i e
          cases hconn
          refine .inr (.inr ⟨e, _, auth, _, _, settled_text hs (by decide +kernel), settled_switch hs (by decide +kernel), settled_text hs (by decide +kernel), rfl, _, settled_text hs (by decide +kernel), ?_⟩)
          unfold FlagSet.dumpAuth at hauth
          generalize hm : authToId (fs.str "ssh.method".toList) = m at hauth
          have hm' : ∀ k, m = some k → (fs.str "ssh.method".toList, k) ∈ [("none".toList, SshMethod.none), ("password".toList, .password), ("key".toList, .key)] := by
            intro k hk
            rw [← hm] at hk
            unfold authToId at hk
            split at hk
            · cases hk; rename_i e; rw [e]; simp
            · split at hk
              · cases hk; rename_i e; rw [e]; simp
              · split at hk
                · cases hk; rename_i e; rw [e]; simp
                · cases hk
          simp only [List.mem_cons, Prod.mk.injEq, List.not_mem_nil, or_false] at hm'
          match m, hm', hauth with
          | none, _, h => cases h
          | some .none, hm', h =>
            cases h
            have := hm' _ rfl
            simp only [reduceCtorEq, and_false, or_false, and_true] at this
            exact .inl ⟨this, rfl⟩
          | some .password, hm', h =>
            cases h
            have := hm' _ rfl
            simp only [reduceCtorEq, and_false, or_false, false_or, and_true] at this
            exact .inr (.inl ⟨this, _, settled_text hs (by decide +kernel), rfl⟩)
          | some .key, hm', h =>
            have := hm' _ rfl
            simp only [reduceCtorEq, and_false, false_or, and_true] at this
            refine .inr (.inr ⟨this, ?_⟩)
            simp only at h
            split at h
            · cases h
            rename_i b hb
            split at h
            swap
            · cases h
            rename_i hk
            cases h
            refine ⟨_, b, settled_text hs (by decide +kernel), ?_, hk, rfl⟩
            unfold keyBytesOf at hb
            split at hb
            · rename_i e; rw [if_pos e]; exact (Option.some.inj hb).symm
            · rename_i e; rw [if_neg e]; exact hb
        · cases hconn

/-- **C167** What rtrdump sends and writes depends on the line only through the flags named here (a line that is refused has no result, C157_refused). -/
theorem C167_dump {args : List Str} {input : Bytes} {r : DumpResult × List Pdu} (h : dumpProgram goFrac args input = some r) :
    ∃ items f, Reads (fun n => rtrdumpFlags.get n ≠ none) (IsSwitch rtrdumpFlags.get) args items ∧ r = dumpMain f input ∧ HasNumber items "rtr.version".toList 1 f.version ∧
      HasSwitch items "serial".toList false f.initSerial ∧ HasNumber items "serial.value".toList 0 f.serial ∧ HasNumber items "session.id".toList 0 f.session ∧
      HasSwitch items "tls.validate".toList true f.validateCert ∧ HasSwitch items "ssh.validate".toList false f.validateSSH ∧ HasText items "ssh.validate.key".toList [] f.serverKey := by
  unfold dumpProgram at h
  split at h
  · cases h
  rename_i fs hfs
  cases h
  obtain ⟨items, hr, hs, _⟩ := C157_read hfs
  exact ⟨items, fs.dump, hr, rfl, settled_number hs (by decide +kernel), settled_switch hs (by decide +kernel), settled_number hs (by decide +kernel), settled_number hs (by decide +kernel),
    settled_switch hs (by decide +kernel), settled_switch hs (by decide +kernel), settled_text hs (by decide +kernel)⟩

/-- **C167** The settings that startup (C148) and the authentication of SSH (C61-C64) work with. -/
theorem C167_startup {ua : Str} {args : List Str} {fs : FlagSet} (h : launch goFrac (stayrtrFlags ua) args = .runs fs) (o : Outside) :
    ∃ items, Reads (fun n => (stayrtrFlags ua).get n ≠ none) (IsSwitch (stayrtrFlags ua).get) args items ∧
      fs.start.args = false ∧ fs.start.version = false ∧ HasText items "metrics.addr".toList ":9847".toList fs.start.metricsAddr ∧ HasText items "metrics.path".toList "/metrics".toList fs.start.metricsPath ∧
      HasText items "export.path".toList "/rpki.json".toList fs.start.exportPath ∧ HasSwitch items "update.endpoint".toList false fs.start.updateEndpoint ∧
      HasText items "bind".toList ":8282".toList fs.start.bind ∧ HasText items "tls.bind".toList [] fs.start.bindTLS ∧ HasText items "ssh.bind".toList [] fs.start.bindSSH ∧
      HasSwitch items "ssh.method.key".toList false fs.start.enableKey ∧ HasText items "ssh.auth.key.file".toList [] fs.start.keysFile ∧
      (∃ k, HasNumber items "refresh".toList 600 k ∧ fs.start.interval = BitVec.ofInt 64 k) ∧
      HasSwitch items "ssh.method.password".toList false (fs.ssh o).enablePassword ∧ (∃ t, HasText items "ssh.auth.user".toList "rpki".toList t ∧ (fs.ssh o).user = utf8Str t) ∧
      (∃ t, HasText items "ssh.auth.password".toList [] t ∧ (fs.ssh o).password = utf8Str t) ∧ (fs.ssh o).envPassword = utf8Str (o.env "STAYRTR_SSH_PASSWORD".toList) ∧
      HasSwitch items "ssh.method.key".toList false (fs.ssh o).enableKey ∧ HasSwitch items "ssh.auth.key.bypass".toList false (fs.ssh o).bypass ∧
      (∃ t, HasText items "ssh.auth.key.file".toList [] t ∧ (fs.ssh o).keysFile = utf8Str t) ∧ (fs.ssh o).envKeys = utf8Str (o.env "STAYRTR_SSH_AUTHORIZEDKEYS".toList) := by
  obtain ⟨items, hr, hs, hver⟩ := C157_read h
  have tx : ∀ {n d : Str}, n ≠ "useragent".toList → (stayrtrFlags []).get n = some (.str d) → HasText items n d (fs.str n) := fun hn hg => settled_text hs (stayrtr_get _ hn hg)
  have sw : ∀ {n : Str} {d : Bool}, n ≠ "useragent".toList → (stayrtrFlags []).get n = some (.bool d) → HasSwitch items n d (fs.bool n) := fun hn hg => settled_switch hs (stayrtr_get _ hn hg)
  have nu : ∀ {n : Str} {d : Int}, n ≠ "useragent".toList → (stayrtrFlags []).get n = some (.int d) → HasNumber items n d (fs.int n) := fun hn hg => settled_number hs (stayrtr_get _ hn hg)
  have hv : fs.start.version = false := by
    show fs.bool "version".toList = false
    unfold FlagSet.bool
    split
    · rename_i b hb
      cases b
      · rfl
      · exact absurd hb hver
    · rfl
  exact ⟨items, hr, rfl, hv, tx (by decide +kernel) (by decide +kernel), tx (by decide +kernel) (by decide +kernel), tx (by decide +kernel) (by decide +kernel), sw (by decide +kernel) (by decide +kernel),
    tx (by decide +kernel) (by decide +kernel), tx (by decide +kernel) (by decide +kernel), tx (by decide +kernel) (by decide +kernel), sw (by decide +kernel) (by decide +kernel),
    tx (by decide +kernel) (by decide +kernel), ⟨_, nu (by decide +kernel) (by decide +kernel), rfl⟩, sw (by decide +kernel) (by decide +kernel), ⟨_, tx (by decide +kernel) (by decide +kernel), rfl⟩,
    ⟨_, tx (by decide +kernel) (by decide +kernel), rfl⟩, rfl, sw (by decide +kernel) (by decide +kernel), sw (by decide +kernel) (by decide +kernel), ⟨_, tx (by decide +kernel) (by decide +kernel), rfl⟩, rfl⟩

/-- What startup finds in the files: those of its own flags. -/
theorem C167_files {ua : Str} {args : List Str} {fs : FlagSet} (h : launch goFrac (stayrtrFlags ua) args = .runs fs) (o : Outside) (listenOk : List Str → Str → Bool) :
    ∃ items cert key hostKey keys, Reads (fun n => (stayrtrFlags ua).get n ≠ none) (IsSwitch (stayrtrFlags ua).get) args items ∧ HasText items "tls.cert".toList [] cert ∧ HasText items "tls.key".toList [] key ∧
      HasText items "ssh.key".toList "private.pem".toList hostKey ∧ HasText items "ssh.auth.key.file".toList [] keys ∧
      ((fs.world o listenOk).certificate = true ↔ ∃ c k, o.read cert = some c ∧ o.read key = some k ∧ o.keyPair c k = true) ∧
      ((fs.world o listenOk).hostKeyRead = true ↔ ∃ b, o.read hostKey = some b) ∧ ((fs.world o listenOk).hostKeyParsed = true ↔ ∃ b, o.read hostKey = some b ∧ o.privateKey b = true) ∧
      ((fs.world o listenOk).keysRead = true ↔ ∃ b, o.read keys = some b) ∧ (fs.world o listenOk).listenOk = listenOk := by
  obtain ⟨items, hr, hs, _⟩ := C157_read h
  have tx : ∀ {n d : Str}, n ≠ "useragent".toList → (stayrtrFlags []).get n = some (.str d) → HasText items n d (fs.str n) := fun hn hg => settled_text hs (stayrtr_get _ hn hg)
  refine ⟨items, _, _, _, _, hr, tx (by decide +kernel) (by decide +kernel), tx (by decide +kernel) (by decide +kernel), tx (by decide +kernel) (by decide +kernel), tx (by decide +kernel) (by decide +kernel), ?_, ?_, ?_, ?_, rfl⟩
  · show (match o.read (fs.str "tls.cert".toList), o.read (fs.str "tls.key".toList) with | some c, some k => o.keyPair c k | _, _ => false) = true ↔ _
    generalize o.read (fs.str "tls.cert".toList) = c
    generalize o.read (fs.str "tls.key".toList) = k
    cases c <;> cases k <;> simp
  · show (o.read (fs.str "ssh.key".toList)).isSome = true ↔ _
    rw [Option.isSome_iff_exists]
  · show ((o.read (fs.str "ssh.key".toList)).map o.privateKey).getD false = true ↔ _
    generalize o.read (fs.str "ssh.key".toList) = k
    cases k <;> simp
  · show (o.read (fs.str "ssh.auth.key.file".toList)).isSome = true ↔ _
    rw [Option.isSome_iff_exists]

/-! ## Without arguments -/

/-- The defaults of the server: version 1, the intervals that RFC 8210 (6) suggests but for the last, no limit of connections, one listener. -/
example : stayrtrProgram exOutside 7 [] = .runs
    { level := .info, verbose := true,
      server := { baseVersion := 1, sessId := [7, 107], maxconn := 0, enforceVersion := false, disableBGPSec := false, enableNODELAY := false, refresh := 3600, retry := 600, expire := 7200 },
      keepDifference := 3, http := some ⟨":9847".toList, "/metrics".toList, some "/rpki.json".toList, false⟩, notify := true, checktime := true, userAgent := exOutside.userAgent, mime := "application/json".toList,
      etags := true, lastModified := true, cache := "https://console.rpki-client.org/rpki.json".toList, slurm := none, tcp := some ":8282".toList, tls := none, ssh := none, interval := 600 } := by decide +kernel

/-- The settings, if the program goes to work. -/
def settings {α : Type} : Begun α → Option α
  | .runs a => some a
  | _ => none

/-- The last text for a flag counts, and zero stands for the default of a timer. -/
example : (settings (stayrtrProgram exOutside 7 ["-protocol=0".toList, "-rtr.refresh".toList, "0".toList, "-bind".toList, ":1".toList, "--bind=:2".toList, "-notifications=f".toList])).map
    (fun s => (s.server.sessId, s.server.refresh, s.tcp)) = some ([7], 3600, some ":2".toList) := by decide +kernel

example : rtrdumpProgram exOutside [] = .runs ⟨.info, false, 1, none, "127.0.0.1:8282".toList, .plain, some "output.json".toList⟩ ∧
    rtrdumpProgram exOutside ["-serial".toList, "-session.id=5".toList, "-serial.value".toList, "0x10".toList, "-type".toList, "tls".toList, "-file=".toList] =
      .runs ⟨.info, false, 1, some (5, 16), "127.0.0.1:8282".toList, .tls true, none⟩ := by decide +kernel

example : (settings (rtrmonProgram exOutside ["-grace.period=1m".toList])).map (fun s => (s.grace, s.primary.path)) = some (3411 * 10 ^ 9, "tcp://rtr.rpki.cloudflare.com:8282".toList) := by decide +kernel

end StayRTR
