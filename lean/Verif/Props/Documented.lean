import Verif.Props.Setup
import Verif.Props.Startup
import Verif.Props.Auth

/-!
# C165: the documented command lines

The command lines of README.md and docker-compose-integration.yml, for the programs as they are.
-/

namespace StayRTR

open Spec Prog

/-! ## The version of the build does not matter -/

/-- The flags that a command line gives, with an empty default of `-useragent`. -/
def parsedLine (flags : Str → FlagSet) (args : List Str) : FlagSet := match launch goFrac (flags []) args with
  | .runs fs => fs
  | .exits _ => []

theorem userAgent_but (ua : Str) : ButFlag "useragent".toList (stayrtrFlags ua) (stayrtrFlags []) ∧ ButFlag "useragent".toList (rtrmonFlags ua) (rtrmonFlags []) := by
  have key : ∀ (l r : FlagSet) (n : Str) (s t : Str), (∀ x ∈ l, x.1 ≠ n) → ButFlag n (l ++ (n, .str s) :: r) (l ++ (n, .str t) :: r) := by
    intro l r n s t hl
    have hn : l.find? (fun x => x.1 == n) = none := List.find?_eq_none.mpr (fun x hx => by simpa using hl x hx)
    refine ⟨fun m hm => ?_, .str s, .str t, ?_, ?_, rfl, fun _ _ => rfl⟩
    · unfold FlagSet.get
      have hm' : ((n == m) : Bool) = false := by simpa using Ne.symm hm
      simp only [List.find?_append, List.find?_cons, hm']
    · unfold FlagSet.get; simp [List.find?_append, hn]
    · unfold FlagSet.get; simp [List.find?_append, hn]
  exact ⟨key ((stayrtrFlags []).take 28) ((stayrtrFlags []).drop 29) _ ua [] (by decide +kernel), key ((rtrmonFlags []).take 4) ((rtrmonFlags []).drop 5) _ ua [] (by decide +kernel)⟩

theorem launch_but {n : Str} {a b : FlagSet} (h : ButFlag n a b) (hv : n ≠ "version".toList) (args : List Str) :
    (∀ k, launch goFrac b args = .exits k → launch goFrac a args = .exits k) ∧ ∀ fb, launch goFrac b args = .runs fb → ∃ fa, launch goFrac a args = .runs fa ∧ ∀ m, m ≠ n → fa.get m = fb.get m := by
  have hr := parse_butFlag goFrac n args h
  unfold launch
  revert hr
  cases parseFlags goFrac a args <;> cases parseFlags goFrac b args <;> simp only [ButFlagResult, false_imp_iff, true_imp_iff]
  · rename_i a l b m
    rintro ⟨hb, rfl⟩
    rw [hb.1 _ (Ne.symm hv)]
    by_cases hl : l = []
    · by_cases hv : b.get "version".toList = some (.bool true)
      · simp only [hl, hv, ne_eq, not_true_eq_false, if_true, if_false, reduceCtorEq, false_imp_iff, implies_true, and_true]
        exact fun k h => h
      · simp only [hl, hv, ne_eq, not_true_eq_false, if_false, reduceCtorEq, false_imp_iff, implies_true, true_and, Launch.runs.injEq]
        rintro fb rfl
        exact ⟨a, rfl, hb.1⟩
    · simp [hl]
  · simp
  · simp

/-- A line of stayrtr that is accepted, whatever the version of the build. -/
theorem stayrtr_accepts {args : List Str} (h : launch goFrac (stayrtrFlags []) args = .runs (parsedLine stayrtrFlags args)) (ua : Str) :
    ∃ fs, launch goFrac (stayrtrFlags ua) args = .runs fs ∧ ∀ m, m ≠ "useragent".toList → fs.get m = (parsedLine stayrtrFlags args).get m :=
  (launch_but (userAgent_but ua).1 (by decide +kernel) args).2 _ h

theorem start_congr {a b : FlagSet} (h : ∀ m, m ≠ "useragent".toList → a.get m = b.get m) : a.start = b.start := by
  have e : ∀ m, m ≠ "useragent".toList → a.str m = b.str m ∧ a.bool m = b.bool m ∧ a.int m = b.int m := fun m hm => by unfold FlagSet.str FlagSet.bool FlagSet.int; rw [h m hm]; exact ⟨rfl, rfl, rfl⟩
  unfold FlagSet.start
  rw [(e "version".toList (by decide +kernel)).2.1, (e "metrics.addr".toList (by decide +kernel)).1, (e "metrics.path".toList (by decide +kernel)).1, (e "export.path".toList (by decide +kernel)).1,
    (e "update.endpoint".toList (by decide +kernel)).2.1, (e "bind".toList (by decide +kernel)).1, (e "tls.bind".toList (by decide +kernel)).1, (e "ssh.bind".toList (by decide +kernel)).1,
    (e "ssh.method.key".toList (by decide +kernel)).2.1, (e "ssh.auth.key.file".toList (by decide +kernel)).1, (e "refresh".toList (by decide +kernel)).2.2]

theorem world_congr {a b : FlagSet} (h : ∀ m, m ≠ "useragent".toList → a.get m = b.get m) (o : Outside) (l : List Str → Str → Bool) : a.world o l = b.world o l := by
  have e : ∀ m, m ≠ "useragent".toList → a.str m = b.str m := fun m hm => by unfold FlagSet.str; rw [h m hm]
  unfold FlagSet.world
  rw [e "tls.cert".toList (by decide +kernel), e "tls.key".toList (by decide +kernel), e "ssh.key".toList (by decide +kernel), e "ssh.auth.key.file".toList (by decide +kernel)]

theorem ssh_congr {a b : FlagSet} (h : ∀ m, m ≠ "useragent".toList → a.get m = b.get m) (o : Outside) : a.ssh o = b.ssh o := by
  have e : ∀ m, m ≠ "useragent".toList → a.str m = b.str m ∧ a.bool m = b.bool m := fun m hm => by unfold FlagSet.str FlagSet.bool; rw [h m hm]; exact ⟨rfl, rfl⟩
  unfold FlagSet.ssh
  rw [(e "ssh.method.password".toList (by decide +kernel)).2, (e "ssh.auth.user".toList (by decide +kernel)).1, (e "ssh.auth.password".toList (by decide +kernel)).1, (e "ssh.method.key".toList (by decide +kernel)).2,
    (e "ssh.auth.key.bypass".toList (by decide +kernel)).2, (e "ssh.auth.key.file".toList (by decide +kernel)).1]

/-! ## Lines that start -/

namespace Spec

/-- README.md:66, without arguments; also package/stayrtr.service. -/
def lineDefault : List Str := []
/-- README.md:71. -/
def lineBind : List Str := ["-bind".toList, ":8083".toList]
/-- README.md:88. -/
def lineDocker : List Str := ["-ssh.bind".toList, ":8083".toList]
/-- README.md:171. -/
def lineSsh : List Str := ["-ssh.bind".toList, ":8282".toList, "-ssh.key".toList, "private.pem".toList, "-bind".toList, []]
/-- README.md:181. -/
def linePassword : List Str :=
  ["-ssh.bind".toList, ":8282".toList, "-ssh.key".toList, "private.pem".toList, "-ssh.method.password=true".toList, "-ssh.auth.user".toList, "rpki".toList, "-ssh.auth.password".toList, "rpki".toList, "-bind".toList, []]
/-- README.md:187. -/
def lineKeys : List Str := ["-ssh.bind".toList, ":8282".toList, "-ssh.key".toList, "private.pem".toList, "-ssh.method.key=true".toList, "-ssh.auth.key.bypass=true".toList, "-bind".toList, []]
/-- README.md:155. -/
def lineTls : List Str := ["-tls.bind".toList, ":8282".toList, "-tls.key".toList, "private.pem".toList, "-tls.cert".toList, "server.pem".toList]
/-- README.md:155 with the remark of line 143. -/
def lineTlsOnly : List Str := lineTls ++ ["-bind".toList, []]
/-- README.md:116. -/
def lineFirst : List Str := ["-tls.bind".toList, "127.0.0.1:8282".toList]
/-- README.md:230. -/
def lineSlurm : List Str := ["-slurm".toList, "./slurm.json".toList]
/-- docker-compose-integration.yml:7-13. -/
def lineIntegration : List Str := ["-cache".toList, "rpki.json".toList, "-slurm".toList, "slurm.json".toList, "-verify=false".toList, "-checktime=false".toList]

/-- The lines with which a server comes up. -/
def goodLines : List (List Str) := [lineDefault, lineBind, lineDocker, lineSsh, linePassword, lineKeys, lineTlsOnly, lineSlurm]

/-- A machine as the documentation supposes it: the key `private.pem` and its certificate `server.pem` are there. -/
structure Prepared (o : Outside) : Prop where
  keys : ∃ k c, o.read "private.pem".toList = some k ∧ o.read "server.pem".toList = some c ∧ o.privateKey k = true ∧ o.keyPair c k = true

/-- An address can be listened on exactly once. -/
def OncePerAddress (listenOk : List Str → Str → Bool) : Prop := ∀ taken a, listenOk taken a = true ↔ a ∉ taken

end Spec

/-- What can be seen of a good line without the world. -/
def goodStart (fs : FlagSet) : Bool :=
  decide (fs.start.version = false ∧ fs.start.metricsAddr ≠ [] ∧ ((∀ x ∈ Spec.paths fs.start, '/' ∈ x.1) ∧ ((Spec.paths fs.start).map (·.1)).Nodup) ∧
    (fs.start.bind ≠ [] ∨ fs.start.bindTLS ≠ [] ∨ fs.start.bindSSH ≠ []) ∧ (fs.start.bindTLS ≠ [] → fs.str "tls.key".toList = "private.pem".toList ∧ fs.str "tls.cert".toList = "server.pem".toList) ∧
    (fs.start.bindSSH ≠ [] → fs.str "ssh.key".toList = "private.pem".toList) ∧ fs.start.keysFile = [] ∧ (1 ≤ fs.start.interval.toNat ∧ fs.start.interval.toNat ≤ 9223372036) ∧ (Spec.addresses fs.start).Nodup)

theorem good_lines : ∀ line ∈ goodLines, launch goFrac (stayrtrFlags []) line = .runs (parsedLine stayrtrFlags line) ∧ goodStart (parsedLine stayrtrFlags line) = true := by decide +kernel

theorem good_start {fs : FlagSet} (h : goodStart fs = true) {o : Outside} (ho : Prepared o) {listenOk : List Str → Str → Bool} (hl : OncePerAddress listenOk) : Spec.Good fs.start (fs.world o listenOk) := by
  obtain ⟨h1, h2, h3, h4, h5, h6, h7, h8, h9⟩ := of_decide_eq_true h
  obtain ⟨k, c, hk, hc, hp, hkp⟩ := ho.keys
  refine ⟨rfl, h1, fun _ => h3, h4, fun ht => ?_, fun hs => ?_, fun _ _ hn => absurd h7 hn, h8, h9, fun taken a _ ha _ => (hl taken a).2 ha⟩
  · obtain ⟨e1, e2⟩ := h5 ht
    simp only [FlagSet.world, e1, e2, hk, hc, hkp]
  · have e := h6 hs
    simp only [FlagSet.world, e, hk, hp, Option.isSome_some, Option.map_some, Option.getD_some, and_self]

/-- **C165** These documented lines are accepted, and on a machine as the documentation supposes it the server comes up, in every schedule: everything configured is served. -/
theorem C165_up_partial {line : List Str} (hline : line ∈ goodLines) {o : Outside} (ho : Prepared o) {listenOk : List Str → Str → Bool} (hl : OncePerAddress listenOk) :
    ∃ fs, launch goFrac (stayrtrFlags o.userAgent) line = .runs fs ∧ ∀ n p, Prog.Runs fs.start (fs.world o listenOk) n .init p →
      p.ended = none ∧ n ≤ 13 ∧ ((∀ q, ¬ Prog.Step fs.start (fs.world o listenOk) p q) → Spec.Up fs.start p) := by
  obtain ⟨h1, h2⟩ := good_lines line hline
  obtain ⟨fs, h3, h4⟩ := stayrtr_accepts h1 o.userAgent
  refine ⟨fs, h3, fun n p hr => ?_⟩
  rw [start_congr h4, world_congr h4] at hr ⊢
  exact C137_good_partial (good_start h2 ho hl) hr

/-- **C165** What listens with each of these lines: TCP, TLS and SSH. -/
theorem C165_addresses_partial (ua : Str) : ∀ x ∈ [(lineDefault, ":8282", "", ""), (lineBind, ":8083", "", ""), (lineDocker, ":8282", "", ":8083"), (lineSsh, "", "", ":8282"), (linePassword, "", "", ":8282"),
      (lineKeys, "", "", ":8282"), (lineTlsOnly, "", ":8282", ""), (lineSlurm, ":8282", "", "")],
    ∃ fs, launch goFrac (stayrtrFlags ua) x.1 = .runs fs ∧ fs.start.bind = x.2.1.toList ∧ fs.start.bindTLS = x.2.2.1.toList ∧ fs.start.bindSSH = x.2.2.2.toList := by
  intro x hx
  have hgood : x.1 ∈ goodLines := by
    revert x; decide +kernel
  obtain ⟨fs, h3, h4⟩ := stayrtr_accepts (good_lines x.1 hgood).1 ua
  refine ⟨fs, h3, ?_⟩
  rw [start_congr h4]
  clear h3 h4 fs ua hgood
  revert x; decide +kernel

/-! ## Authentication -/

theorem auth_of {line : List Str} (hline : line ∈ goodLines) (o : Outside) : ∃ fs, launch goFrac (stayrtrFlags o.userAgent) line = .runs fs ∧ fs.ssh o = (parsedLine stayrtrFlags line).ssh o := by
  obtain ⟨fs, h3, h4⟩ := stayrtr_accepts (good_lines line hline).1 o.userAgent
  exact ⟨fs, h3, ssh_congr h4 o⟩

/-- **C165** With the first documented SSH line there is no authentication; with the second exactly the user rpki with the password rpki gets in; with the third exactly everybody with a key of their own. -/
theorem C165_ssh_partial (o : Outside) (readFile : Bytes → Option Bytes) :
    (∃ fs a, launch goFrac (stayrtrFlags o.userAgent) lineSsh = .runs fs ∧ sshConfig readFile (fs.ssh o) = .ok a ∧ ∀ u, a.admits (.none u) = true) ∧
    (∃ fs a, launch goFrac (stayrtrFlags o.userAgent) linePassword = .runs fs ∧ sshConfig readFile (fs.ssh o) = .ok a ∧
      ∀ x, a.admits x = true ↔ x = .password (utf8Str "rpki".toList) (utf8Str "rpki".toList)) ∧
    ∃ fs a, launch goFrac (stayrtrFlags o.userAgent) lineKeys = .runs fs ∧ sshConfig readFile (fs.ssh o) = .ok a ∧ ∀ x, a.admits x = true ↔ ∃ u k, x = .publicKey u k true := by
  refine ⟨?_, ?_, ?_⟩
  · obtain ⟨fs, h1, h2⟩ := auth_of (line := lineSsh) (by decide +kernel) o
    have e1 : (parsedLine stayrtrFlags lineSsh).bool "ssh.method.key".toList = false := by decide +kernel
    have e2 : (parsedLine stayrtrFlags lineSsh).bool "ssh.method.password".toList = false := by decide +kernel
    refine ⟨fs, ⟨none, none, true⟩, h1, ?_, fun _ => rfl⟩
    rw [h2]
    simp only [sshConfig, FlagSet.ssh, e1, e2, Bool.false_eq_true, if_false, Bool.or_self, Bool.not_false]
  · obtain ⟨fs, h1, h2⟩ := auth_of (line := linePassword) (by decide +kernel) o
    have e1 : (parsedLine stayrtrFlags linePassword).bool "ssh.method.key".toList = false := by decide +kernel
    have e2 : (parsedLine stayrtrFlags linePassword).bool "ssh.method.password".toList = true := by decide +kernel
    have e3 : (parsedLine stayrtrFlags linePassword).str "ssh.auth.user".toList = "rpki".toList := by decide +kernel
    have e4 : (parsedLine stayrtrFlags linePassword).str "ssh.auth.password".toList = "rpki".toList := by decide +kernel
    refine ⟨fs, ⟨some (passwordCallback (fs.ssh o)), none, false⟩, h1, ?_, fun x => ?_⟩
    · rw [h2]
      simp only [sshConfig, FlagSet.ssh, e1, e2, Bool.false_eq_true, if_false, if_true, Bool.false_or, Bool.not_true]
    · cases x with
      | none u => simp [SshAuth.admits]
      | publicKey u k s => simp [SshAuth.admits]
      | password u p =>
        have hne : utf8Str "rpki".toList ≠ [] := by decide +kernel
        rw [h2]
        simp only [SshAuth.admits, passwordCallback, FlagSet.ssh, e3, e4, if_neg hne, SshAttempt.password.injEq]
        simp
  · obtain ⟨fs, h1, h2⟩ := auth_of (line := lineKeys) (by decide +kernel) o
    have e1 : (parsedLine stayrtrFlags lineKeys).bool "ssh.method.key".toList = true := by decide +kernel
    have e2 : (parsedLine stayrtrFlags lineKeys).bool "ssh.method.password".toList = false := by decide +kernel
    have e3 : (parsedLine stayrtrFlags lineKeys).bool "ssh.auth.key.bypass".toList = true := by decide +kernel
    have e4 : (parsedLine stayrtrFlags lineKeys).str "ssh.auth.key.file".toList = [] := by decide +kernel
    refine ⟨fs, ⟨none, some (keyCallback (fs.ssh o) (splitLines (fs.ssh o).envKeys)), false⟩, h1, ?_, fun x => ?_⟩
    · rw [h2]
      have : utf8Str ([] : Str) = [] := rfl
      simp only [sshConfig, FlagSet.ssh, e1, e2, e4, this, Bool.false_eq_true, if_false, if_true, Bool.true_or, Bool.not_true]
    · cases x with
      | none u => simp [SshAuth.admits]
      | password u p => simp [SshAuth.admits]
      | publicKey u k s =>
        rw [h2]
        simp only [SshAuth.admits, keyCallback, FlagSet.ssh, e3, Bool.not_true, Bool.false_eq_true, if_false, Bool.true_and, SshAttempt.publicKey.injEq]
        constructor
        · intro hs; exact ⟨u, k, rfl, rfl, hs⟩
        · rintro ⟨_, _, rfl, rfl, hs⟩; exact hs

/-! ## Lines that do not start -/

/-- **C165 (fails)** The line of the integration test is refused, with status 2: there is no flag `-verify`. -/
theorem C165_integration_false (ua : Str) : launch goFrac (stayrtrFlags ua) lineIntegration = .exits 2 :=
  (launch_but (userAgent_but ua).1 (by decide +kernel) lineIntegration).1 2 (by decide +kernel)

/-- Two listeners with the same address never serve both, and the program does not stay up, in any schedule. -/
theorem same_address {f : StartFlags} {w : StartWorld} (hl : OncePerAddress w.listenOk) {t u : Transport} (htu : t ≠ u) (ht : address f t ≠ []) (ha : address f u = address f t) {n : Nat} {p : Prog}
    (h : Prog.Runs f w n .init p) : ¬ (p.serves t ∧ p.serves u) ∧ ((∀ q, ¬ Prog.Step f w p q) → p.ended ≠ none) := by
  have hinv : (∀ s, p.listener s = .listening → address f s ∈ p.taken) ∧ ¬ (p.listener t = .listening ∧ p.listener u = .listening) := by
    refine h.inv (fun p => (∀ s, p.listener s = .listening → address f s ∈ p.taken) ∧ ¬ (p.listener t = .listening ∧ p.listener u = .listening)) ?_ ?_
    · simp [Prog.init]
    · intro a b ⟨h1, h2⟩ hs
      have hset : ∀ (s : Transport) (l : ListenAt) (x : RunAt), l ≠ .listening → (∀ s', ({ a.setListener s l with pos := x } : Prog).listener s' = .listening → address f s' ∈ a.taken) ∧
          ¬ (({ a.setListener s l with pos := x } : Prog).listener t = .listening ∧ ({ a.setListener s l with pos := x } : Prog).listener u = .listening) := by
        intro s l x hne
        have hx : ∀ s', ({ a.setListener s l with pos := x } : Prog).listener s' = .listening → a.listener s' = .listening := by
          intro s' hs'
          simp only [Prog.setListener] at hs'
          split at hs'
          · exact absurd hs' hne
          · exact hs'
        exact ⟨fun s' hs' => h1 s' (hx s' hs'), fun hh => h2 ⟨hx _ hh.1, hx _ hh.2⟩⟩
      cases hs with
      | main hm =>
        rcases Prog.mainStep_cases hm with ⟨e, rfl, _⟩ | h | h | h | h | h | h | h | h | h | h | h | h
        · exact ⟨h1, h2⟩
        all_goals
          first
          | (obtain ⟨_, _, _, rfl⟩ := h; first | exact ⟨h1, h2⟩ | exact hset _ _ _ (by decide))
          | (obtain ⟨_, _, m, _, rfl⟩ := h; exact ⟨h1, h2⟩)
      | http hm =>
        rcases Prog.httpStep_cases hm with ⟨_, ⟨m, _, rfl⟩ | ⟨_, rfl⟩⟩ | ⟨_, ⟨_, rfl⟩ | ⟨_, rfl⟩⟩
        · exact ⟨h1, h2⟩
        · exact ⟨h1, h2⟩
        · exact ⟨fun s hs => List.mem_append_left _ (h1 s hs), h2⟩
        · exact ⟨h1, h2⟩
      | listen s hm =>
        obtain ⟨hst, ⟨hok, rfl⟩ | ⟨_, rfl⟩⟩ := Prog.listenStep_cases hm
        · have hnot := (hl _ _).1 hok
          refine ⟨fun s' hs' => ?_, fun hh => ?_⟩
          · simp only [Prog.setListener] at hs'
            split at hs'
            · rename_i e; subst e; exact List.mem_append_right _ (by simp)
            · exact List.mem_append_left _ (h1 s' hs')
          · simp only [Prog.setListener] at hh
            by_cases e1 : t = s
            · subst e1
              rw [if_neg (Ne.symm htu)] at hh
              exact hnot (ha ▸ h1 u hh.2)
            · by_cases e2 : u = s
              · subst e2
                rw [if_neg htu] at hh
                exact hnot (ha.symm ▸ h1 t hh.1)
              · rw [if_neg e1, if_neg e2] at hh
                exact h2 hh
        · exact ⟨h1, h2⟩
  refine ⟨fun hh => hinv.2 ⟨hh.1.2, hh.2.2⟩, fun hno he => ?_⟩
  have hpos : p.pos = .loop := by
    cases hp : p.pos
    case loop => rfl
    all_goals
      exfalso
      cases hm : p.mainStep f w with
      | some q => exact hno q (.main hm)
      | none =>
        unfold Prog.mainStep at hm
        rw [if_neg (by simp [he])] at hm
        simp [hp] at hm
  have hlisten : ∀ s, address f s ≠ [] → p.listener s = .listening := by
    intro s hs
    have := (Prog.formed_runs h).1.2 s
    rw [hpos, if_neg (by cases s <;> decide)] at this
    cases hl : p.listener s with
    | off => exact absurd (this.1 hl) hs
    | listening => rfl
    | starting =>
      exfalso
      cases hm : p.listenStep f w s with
      | some q => exact hno q (.listen s hm)
      | none =>
        unfold Prog.listenStep at hm
        rw [if_neg (by simp [he])] at hm
        simp [hl] at hm
  exact hinv.2 ⟨hlisten t ht, hlisten u (ha ▸ ht)⟩

/-- **C165 (fails)** With the documented line for TLS the program ends, in every schedule, and never serves both TCP and TLS: the address is also the default of `-bind`. -/
theorem C165_tls_false (o : Outside) {listenOk : List Str → Str → Bool} (hl : OncePerAddress listenOk) :
    ∃ fs, launch goFrac (stayrtrFlags o.userAgent) lineTls = .runs fs ∧ ∀ n p, Prog.Runs fs.start (fs.world o listenOk) n .init p →
      ¬ (p.serves .tcp ∧ p.serves .tls) ∧ ((∀ q, ¬ Prog.Step fs.start (fs.world o listenOk) p q) → p.ended ≠ none) := by
  obtain ⟨fs, h3, h4⟩ := stayrtr_accepts (args := lineTls) (by decide +kernel) o.userAgent
  refine ⟨fs, h3, fun n p hr => ?_⟩
  have e := start_congr h4
  exact same_address (t := .tcp) (u := .tls) hl (by decide) (by rw [e]; decide +kernel) (by rw [e]; decide +kernel) hr

/-- **C165 (fails)** With the first line of the documentation the program ends, in every schedule, and never serves TLS: no certificate is given. -/
theorem C165_first_false (o : Outside) (ho : o.read [] = none) (listenOk : List Str → Str → Bool) :
    ∃ fs, launch goFrac (stayrtrFlags o.userAgent) lineFirst = .runs fs ∧ ∀ n p, Prog.Runs fs.start (fs.world o listenOk) n .init p →
      ¬ p.serves .tls ∧ ((∀ q, ¬ Prog.Step fs.start (fs.world o listenOk) p q) → p.ended ≠ none) := by
  obtain ⟨fs, h3, h4⟩ := stayrtr_accepts (args := lineFirst) (by decide +kernel) o.userAgent
  refine ⟨fs, h3, fun n p hr => ?_⟩
  have hcert : (fs.world o listenOk).certificate = false := by
    rw [world_congr h4]
    have e1 : (parsedLine stayrtrFlags lineFirst).str "tls.cert".toList = [] := by decide +kernel
    simp only [FlagSet.world, e1, ho]
  have hb : fs.start.bindTLS ≠ [] := by rw [start_congr h4]; decide +kernel
  generalize fs.start = f at hr hb ⊢
  generalize fs.world o listenOk = w at hr hcert ⊢
  have hinv : p.listener .tls = .off ∧ p.pos ≠ .loop := by
    have : p.pos.idx ≤ 5 := by
      refine hr.inv (fun p => p.pos.idx ≤ 5) (by decide) ?_
      intro a b h1 hs
      cases hs with
      | main hm =>
        unfold Prog.mainStep at hm
        split at hm
        · cases hm
        · cases hp : a.pos <;> simp only [hp, RunAt.idx] at hm h1 <;> first | omega | skip
          all_goals
            simp only [Option.some.injEq, hb, hcert, ne_eq, Bool.false_eq_true, if_false] at hm
            subst hm
            repeat' split
            all_goals simp [RunAt.idx]
      | http hm =>
        rcases Prog.httpStep_cases hm with ⟨_, ⟨m, _, rfl⟩ | ⟨_, rfl⟩⟩ | ⟨_, ⟨_, rfl⟩ | ⟨_, rfl⟩⟩ <;> exact h1
      | listen s hm =>
        obtain ⟨hst, ⟨hok, rfl⟩ | ⟨_, rfl⟩⟩ := Prog.listenStep_cases hm <;> exact h1
    have hf := (Prog.formed_runs hr).1.2 .tls
    rw [if_pos (by exact this)] at hf
    exact ⟨hf, fun e => by rw [e] at this; revert this; decide⟩
  refine ⟨fun hh => ?_, fun hno he => ?_⟩
  · have := hh.2; rw [hinv.1] at this; cases this
  · cases hm : p.mainStep f w with
    | some q => exact hno q (.main hm)
    | none =>
      unfold Prog.mainStep at hm
      rw [if_neg (by simp [he])] at hm
      have := hinv.2
      cases hp : p.pos <;> simp [hp] at hm this

/-! ## rtrmon and rtrdump -/

namespace Spec

/-- README.md:267-271. -/
def lineMon : List Str :=
  ["-primary.host".toList, "tcp://rtr.rpki.cloudflare.com:8282".toList, "-secondary.host".toList, "https://console.rpki-client.org/rpki.json".toList, "-secondary.refresh".toList, "30s".toList,
   "-primary.refresh".toList, "30s".toList]
/-- README.md:251. -/
def lineDump : List Str := ["-connect".toList, "127.0.0.1:8282".toList, "-file".toList, "debug.json".toList]
/-- docker-compose-integration.yml:21-24. -/
def lineDumpIntegration : List Str := ["-connect".toList, "stayrtr:8282".toList, "-file".toList, []]

end Spec

/-- **C165** The documented line of rtrmon compares the two sources every 30 seconds, with the default thresholds and a grace period of an hour, and publishes under `/metrics` and `/diff.json`. -/
theorem C165_rtrmon_partial (o : Outside) : ∃ s, rtrmonProgram o lineMon = .runs s ∧ s.primary.path = "tcp://rtr.rpki.cloudflare.com:8282".toList ∧
    s.secondary.path = "https://console.rpki-client.org/rpki.json".toList ∧ s.primary.refresh = 30 * 10 ^ 9 ∧ s.secondary.refresh = 30 * 10 ^ 9 ∧ s.grace = 3600 * 10 ^ 9 ∧
    s.thresholds = defaultThresholds ∧ s.metricsPath = "/metrics".toList ∧ s.outFile = "diff.json".toList ∧ s.conditional = true := by
  obtain ⟨fs, h3, h4⟩ := (launch_but (userAgent_but o.userAgent).2 (by decide +kernel) lineMon).2 (parsedLine rtrmonFlags lineMon) (by decide +kernel)
  have e : ∀ m, m ≠ "useragent".toList → fs.str m = (parsedLine rtrmonFlags lineMon).str m ∧ fs.bool m = (parsedLine rtrmonFlags lineMon).bool m ∧ fs.duration m = (parsedLine rtrmonFlags lineMon).duration m :=
    fun m hm => by unfold FlagSet.str FlagSet.bool FlagSet.duration; rw [h4 m hm]; exact ⟨rfl, rfl, rfl⟩
  have ht : fs.thresholds = defaultThresholds := by
    unfold FlagSet.thresholds
    rw [h4 _ (by decide +kernel), (by decide +kernel : (parsedLine rtrmonFlags lineMon).get "visibility.thresholds".toList = some (.thresholds defaultThresholds))]
  have hp : ∃ p, fs.monSource o "primary".toList "1".toList monPrimary = some p ∧ p.path = "tcp://rtr.rpki.cloudflare.com:8282".toList ∧ p.refresh = 30 * 10 ^ 9 := by
    unfold FlagSet.monSource
    rw [(e ("primary".toList ++ ".ssh.method".toList) (by decide +kernel)).1, (by decide +kernel : authToId ((parsedLine rtrmonFlags lineMon).str ("primary".toList ++ ".ssh.method".toList)) = some .none)]
    refine ⟨_, rfl, ?_, ?_⟩
    · dsimp only; rw [(e ("primary".toList ++ ".host".toList) (by decide +kernel)).1]; decide +kernel
    · dsimp only; rw [(e ("primary".toList ++ ".refresh".toList) (by decide +kernel)).2.2]; decide +kernel
  have hq : ∃ p, fs.monSource o "secondary".toList "2".toList monSecondary = some p ∧ p.path = "https://console.rpki-client.org/rpki.json".toList ∧ p.refresh = 30 * 10 ^ 9 := by
    unfold FlagSet.monSource
    rw [(e ("secondary".toList ++ ".ssh.method".toList) (by decide +kernel)).1, (by decide +kernel : authToId ((parsedLine rtrmonFlags lineMon).str ("secondary".toList ++ ".ssh.method".toList)) = some .none)]
    refine ⟨_, rfl, ?_, ?_⟩
    · dsimp only; rw [(e ("secondary".toList ++ ".host".toList) (by decide +kernel)).1]; decide +kernel
    · dsimp only; rw [(e ("secondary".toList ++ ".refresh".toList) (by decide +kernel)).2.2]; decide +kernel
  obtain ⟨p, hp, hp1, hp2⟩ := hp
  obtain ⟨q, hq, hq1, hq2⟩ := hq
  unfold rtrmonProgram
  rw [h3]
  dsimp only
  unfold FlagSet.rtrmon
  rw [ht, hp, hq, (by decide : defaultThresholds.getLast? = some 3411)]
  refine ⟨_, rfl, hp1, hq1, hp2, hq2, ?_, rfl, ?_, ?_, ?_⟩
  · dsimp only; rw [(e "grace.period".toList (by decide +kernel)).2.2]; decide +kernel
  · dsimp only; rw [(e "metrics".toList (by decide +kernel)).1]; decide +kernel
  · dsimp only; rw [(e "file".toList (by decide +kernel)).1]; decide +kernel
  · dsimp only; rw [(e "disable.conditional.requests".toList (by decide +kernel)).2.1]; decide +kernel

/-- **C165** The documented lines of rtrdump ask over TCP for everything, in version 1; the first writes the file `debug.json`, the second the standard output. -/
theorem C165_rtrdump_partial (o : Outside) : rtrdumpProgram o lineDump = .runs ⟨.info, false, 1, none, "127.0.0.1:8282".toList, .plain, some "debug.json".toList⟩ ∧
    rtrdumpProgram o lineDumpIntegration = .runs ⟨.info, false, 1, none, "stayrtr:8282".toList, .plain, none⟩ := by
  have key : ∀ line, launch goFrac rtrdumpFlags line = .runs (parsedLine (fun _ => rtrdumpFlags) line) → authToId ((parsedLine (fun _ => rtrdumpFlags) line).str "ssh.method".toList) = some .none →
      rtrdumpProgram o line = rtrdumpProgram exOutside line := by
    intro line h h2
    unfold rtrdumpProgram
    rw [h]
    dsimp only
    unfold FlagSet.rtrdump FlagSet.dumpAuth
    rw [h2]
  exact ⟨(key _ (by decide +kernel) (by decide +kernel)).trans (by decide +kernel), (key _ (by decide +kernel) (by decide +kernel)).trans (by decide +kernel)⟩

/-- A machine as these theorems suppose it. -/
example : Prepared exOutside ∧ OncePerAddress (fun taken a => decide (a ∉ taken)) ∧ ({ exOutside with read := fun _ => none } : Outside).read [] = none :=
  ⟨⟨_, _, rfl, rfl, rfl, rfl⟩, fun _ _ => by simp, rfl⟩

/-- Without `-verify=false` the line of the integration test is accepted. -/
example : ∃ fs, launch goFrac (stayrtrFlags []) ["-cache".toList, "rpki.json".toList, "-slurm".toList, "slurm.json".toList, "-checktime=false".toList] = .runs fs :=
  ⟨parsedLine stayrtrFlags ["-cache".toList, "rpki.json".toList, "-slurm".toList, "slurm.json".toList, "-checktime=false".toList], by decide +kernel⟩

end StayRTR
