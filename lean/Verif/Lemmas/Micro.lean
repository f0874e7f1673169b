import Verif.Lemmas.CoWp
import Verif.Lemmas.Requests
import Verif.Lemmas.Sig
/-!
# The atomic state changes of a gateway

`Micro` lists every change a running gateway makes to the shared state, with what is known when it is made.
Whatever all of them preserve is true of every reachable gateway (`reach_inv` in Lemmas/Reach.lean).
-/
set_option linter.unusedVariables false

namespace SL

/-- The query whose answer a decoder decodes: message code and payload. -/
def Decoder.query : Decoder → Option (Int × Except PyErr Bytes)
  | .status => some (12526, packObjs [.int 0])
  | .config => some (12532, packObjs [.int 0, .int 0])
  | .scg => some (12572, packObjs [.int 0])
  | .chemistry => some (12592, packObjs [.int 0])
  | .pump i => some (12584, packObjs [.int 0, .int i])
  | .version => some (8120, .ok [])
  | .dateTime _ => some (8110, .ok [])
  | .colorUpdate => none
  | .equipment => none

/-- Where the raw answer is kept in `_last`. -/
def Decoder.rawPath : Decoder → Path
  | .status => [.s "status"]
  | .config => [.s "config"]
  | .scg => [.s "scg"]
  | .chemistry => [.s "chemistry"]
  | .pump i => [.s "pumps", .i i]
  | .version => [.s "version"]
  | .dateTime _ => [.s "date_time"]
  | .colorUpdate => [.s "color_update"]
  | .equipment => [.s "equipment"]

/-- The task's last action was to receive `o` for a request with this code and payload. -/
def JustGot (h : List Act) (code : Int) (payload : Except PyErr Bytes) (o : Option Bytes) : Prop :=
  ∃ h0 c p, h = h0 ++ [.ask c code p, .got (.ok o)] ∧ payload = .ok p

/-- The client registration is in force as far as the log shows: an add-client request has been acknowledged
and no remove-client request has been made since. -/
def Registered (log : List (Nat × Act)) : Prop :=
  ∃ pre t post h0 c p, log = pre ++ (t, Act.got (.ok (some []))) :: post ∧
    ((pre.filter (fun x => x.1 == t)).map (·.2)) = h0 ++ [.ask c 12522 p] ∧
    ∀ x ∈ post, ∀ c p, x.2 ≠ .ask c 12524 p

/-- The last thing a task did was to log in on connection `c`, where the adapter gave the MAC address `m`. -/
def LoggedIn (h : List Act) (c : Nat) (m : String) : Prop :=
  ∃ h0 b b' msg, loginMessage = .ok msg ∧ decodeMessageString b = .ok m ∧
    h = h0 ++ [.ask c 14 [], .got (.ok (some b)), .ask c 27 msg, .got (.ok (some b'))]

/-- Changes made by a task with history `h`. -/
inductive Upd (E : Env) (t : Nat) (h : List Act) (g : Gw) : Gw → Prop
  | data (D : Decoder) (code : Int) (payload : Except PyErr Bytes) (b : Bytes) (hq : D.query = some (code, payload))
      (hg : JustGot h code payload (some b)) (hb : b ≠ []) :
      Upd E t h g (g.setData (decodeWith (D.prog E.pyFloat) b g.data).2)
  | last (D : Decoder) (code : Int) (payload : Except PyErr Bytes) (b : Bytes) (hq : D.query = some (code, payload))
      (hg : JustGot h code payload (some b)) (hb : b ≠ [])
      (hd : ∃ d, decodeWith (D.prog E.pyFloat) b d = (.ok (), g.data)) :
      Upd E t h g (g.putLast D.rawPath (.bytes b))
  | noVersion (o : Option Bytes) (hg : JustGot h 8120 (.ok []) o) (ho : o = none ∨ o = some []) :
      Upd E t h g (g.putLast [.s "version"] .null)
  | pumps : Upd E t h g (g.putLastNew [.s "pumps"] (.dict []))
  | unclient (hl : g.lock = some t) (hc : g.isClient = true) : Upd E t h g (g.setClient false)
  | client (hl : g.lock = some t) (l : List (Nat × Act)) (h0 : List Act) (c : Nat) (p : Bytes)
      (hg : h = h0 ++ [.ask c 12522 p, .got (.ok (some []))])
      (hlog : g.log = l ++ [(t, .got (.ok (some [])))]) :
      Upd E t h g (g.setClient true)
  | disableKeepalive (c : Nat) : Upd E t h g (g.net c .disableKeepalive)
  | unregisterAll (c : Nat) : Upd E t h g (g.net c .unregisterAll)
  | enableKeepalive (c : Nat) : Upd E t h g (g.net c (.enableKeepalive 0))
  | register (c code : Nat) (hc : (aget code g.listeners).isSome) :
      Upd E t h g (g.net c (.register code (commonHandler code)))
  | release (hl : g.lock = some t) : Upd E t h g g.release
  | attach (c : Nat) (hc : c < g.conns.length) : Upd E t h g (g.attachTo c)
  | remember (a : ConnectArgs) (hn : g.isConnected = false) : Upd E t h g (g.remember a)
  | raw (c : Nat) (b : Bytes) : Upd E t h g (g.writeRaw c b)
  | proto (c : Nat) (m : String) (hc : c < g.conns.length) (hm : LoggedIn h c m) : Upd E t h g (g.setProto c m)
  | listen (cb code : Nat) : Upd E t h g (g.addListener code cb).2

/-- What is known when a request is made.  `U`: nobody sends add-client or remove-client messages by hand. -/
def AskOk (U : Prop) (t : Nat) (code : Int) (g : Gw) : Prop :=
  U → (code = 12522 → g.lock = some t ∧ g.isClientNow = false) ∧
    (code = 12524 → g.lock = some t ∧ g.isClient = false ∧ Registered g.log)

/-- The last thing task `t` did was to make the request that is call `r` of connection `c`. -/
def Gw.asked (g : Gw) (t c r : Nat) : Prop :=
  ∃ h0 code data x q, g.acts t = h0 ++ [.ask c code data] ∧ g.conns[c]? = some x ∧ x.w.reqs[r]? = some q ∧
    q.code = code ∧ q.data = data

/-- All atomic changes. -/
inductive Micro (E : Env) (U : Prop) : Gw → Gw → Prop
  | upd (t : Nat) (g g' : Gw) (hu : Upd E t (g.acts t) g g') : Micro E U g g'
  | ask (t c : Nat) (code : Int) (data : Bytes) (r : Int) (g : Gw) (ha : AskOk U t code g) :
      Micro E U g (g.ask t c code data r).2
  | got (t : Nat) (o : Except PyErr (Option Bytes)) (g : Gw) (ho : ∃ c r, g.outcome c r = some o) : Micro E U g (g.note t (.got o))
  | opn (t : Nat) (g : Gw) : Micro E U g (g.note t (.opn (g.ip.getD "") g.port))
  | cls (t c : Nat) (force : Bool) (g : Gw) : Micro E U g (g.startClose t c force).2
  | take (t : Nat) (g : Gw) (hl : g.lock = none) : Micro E U g (g.take t)
  | waiters (w : List Nat) (g : Gw) : Micro E U g (g.setWaiters w)
  | conn (g : Gw) : Micro E U g g.addConn
  | ping (c : Nat) (g : Gw) : Micro E U g (g.countPing c)
  | unsub (g : Gw) : Micro E U g g.takeUnsub
  | env (g g' : Gw) (h : EnvStep E g g') : Micro E U g g'

/-- Changes not made by task `t`. -/
inductive MicroBut (E : Env) (U : Prop) (t : Nat) : Gw → Gw → Prop
  | upd (t' : Nat) (hne : t' ≠ t) (g g' : Gw) (hu : Upd E t' (g.acts t') g g') : MicroBut E U t g g'
  | ask (t' c : Nat) (hne : t' ≠ t) (code : Int) (data : Bytes) (r : Int) (g : Gw) (ha : AskOk U t' code g) :
      MicroBut E U t g (g.ask t' c code data r).2
  | got (t' : Nat) (hne : t' ≠ t) (o : Except PyErr (Option Bytes)) (g : Gw) (ho : ∃ c r, g.outcome c r = some o) :
      MicroBut E U t g (g.note t' (.got o))
  | opn (t' : Nat) (hne : t' ≠ t) (g : Gw) : MicroBut E U t g (g.note t' (.opn (g.ip.getD "") g.port))
  | cls (t' c : Nat) (hne : t' ≠ t) (force : Bool) (g : Gw) : MicroBut E U t g (g.startClose t' c force).2
  | take (t' : Nat) (hne : t' ≠ t) (g : Gw) (hl : g.lock = none) : MicroBut E U t g (g.take t')
  | waiters (w : List Nat) (g : Gw) : MicroBut E U t g (g.setWaiters w)
  | conn (g : Gw) : MicroBut E U t g g.addConn
  | ping (c : Nat) (g : Gw) : MicroBut E U t g (g.countPing c)
  | unsub (g : Gw) : MicroBut E U t g g.takeUnsub
  | env (g g' : Gw) (h : EnvStep E g g') : MicroBut E U t g g'

theorem MicroBut.micro {E : Env} {U : Prop} {t : Nat} {g g' : Gw} (h : MicroBut E U t g g') : Micro E U g g' := by
  cases h with
  | upd t' hne _ _ hu => exact .upd t' _ _ hu
  | ask t' c hne code data r _ ha => exact .ask t' c code data r _ ha
  | got t' hne o _ ho => exact .got t' o _ ho
  | opn t' hne => exact .opn t' _
  | cls t' c hne force => exact .cls t' c force _
  | take t' hne _ hl => exact .take t' _ hl
  | waiters w => exact .waiters w _
  | conn => exact .conn _
  | ping c => exact .ping c _
  | unsub => exact .unsub _
  | env _ _ h => exact .env _ _ h

/-! ## Facts about single changes -/

/-- What most changes leave alone. -/
structure Quiet (g g' : Gw) : Prop where
  protocol : g'.protocol = g.protocol
  cmProto : g'.cmProto = g.cmProto
  isClient : g'.isClient = g.isClient
  lock : g'.lock = g.lock
  len : g'.conns.length = g.conns.length
  down : ∀ c, g.connected c = false → g'.connected c = false

theorem Quiet.refl (g : Gw) : Quiet g g := ⟨rfl, rfl, rfl, rfl, rfl, fun _ h => h⟩

theorem Quiet.trans {a b c : Gw} (h : Quiet a b) (h' : Quiet b c) : Quiet a c :=
  ⟨h'.1.trans h.1, h'.2.trans h.2, h'.3.trans h.3, h'.4.trans h.4, h'.5.trans h.5, fun x hx => h'.6 x (h.6 x hx)⟩

theorem Quiet.same {g g' : Gw} (h1 : g'.protocol = g.protocol) (h2 : g'.cmProto = g.cmProto)
    (h3 : g'.isClient = g.isClient) (h4 : g'.lock = g.lock) (h5 : g'.conns = g.conns) : Quiet g g' :=
  ⟨h1, h2, h3, h4, by rw [h5], fun c hc => by simpa only [Gw.connected, h5] using hc⟩

/-- A change of one connection that does not bring it back. -/
theorem quiet_modify (g : Gw) (c : Nat) (f : Conn → Conn) (hf : ∀ x : Conn, x.w.p.connected = false → (f x).w.p.connected = false) :
    Quiet g { g with conns := g.conns.modify c f } := by
  refine ⟨rfl, rfl, rfl, rfl, by simp, fun c' hc => ?_⟩
  simp only [Gw.connected, List.getElem?_modify] at hc ⊢
  cases hx : g.conns[c']? with
  | none => rfl
  | some x =>
    simp only [hx] at hc
    by_cases he : c = c'
    · simpa [he] using hf x hc
    · simpa [he] using hc

theorem quiet_net (g : Gw) (c : Nat) (e : Event) : Quiet g (g.net c e) :=
  quiet_modify g c _ (fun x hx => (step_later x.w e).disconnected hx)

theorem quiet_note (g : Gw) (t : Nat) (a : Act) : Quiet g (g.note t a) := .same rfl rfl rfl rfl rfl

theorem quiet_ask (g : Gw) (t c : Nat) (code : Int) (data : Bytes) (r : Int) : Quiet g (g.ask t c code data r).2 := by
  simp only [Gw.ask]
  exact ((quiet_net _ _ _).trans (quiet_net _ _ _)).trans (quiet_note _ _ _)

theorem quiet_close (g : Gw) (t c : Nat) (force : Bool) : Quiet g (g.startClose t c force).2 := by
  simp only [Gw.startClose]
  exact ((quiet_net _ _ _).trans (quiet_net _ _ _)).trans (quiet_note _ _ _)

theorem quiet_env {E : Env} {g g' : Gw} (h : EnvStep E g g') : Quiet g g' := by
  cases h with
  | nothing => exact .refl g
  | setMaxRetries n =>
    simp only [Gw.setMaxRetries]
    split
    · exact .same rfl rfl rfl rfl rfl
    · exact .refl g
  | unsubscribe u =>
    simp only [Gw.unsubscribe]
    split
    · split
      · split
        · split
          · simp only [Gw.dropCode]
            split
            · split
              · split
                · rename_i l _ _ _ _ _ c _ _ _
                  refine Quiet.trans (b := Gw.net ((g.setSet u.set (l.erase u.cb)).delListener u.code) c (.unregister u.code)) ?_
                    (.same rfl rfl rfl rfl rfl)
                  exact Quiet.trans (b := (g.setSet u.set (l.erase u.cb)).delListener u.code) (.same rfl rfl rfl rfl rfl) (quiet_net _ _ _)
                · rename_i l _ _ _ _ _ c _ _ _
                  exact Quiet.trans (b := (g.setSet u.set (l.erase u.cb)).delListener u.code) (.same rfl rfl rfl rfl rfl) (quiet_net _ _ _)
              · exact .same rfl rfl rfl rfl rfl
            · exact .same rfl rfl rfl rfl rfl
          · exact .same rfl rfl rfl rfl rfl
        · exact .same rfl rfl rfl rfl rfl
      · exact .refl g
    · exact .refl g
  | register => exact quiet_net _ _ _
  | unregister => exact quiet_net _ _ _
  | net c e =>
    refine Quiet.trans ?_ (quiet_net _ _ _)
    simp only [Gw.lostCallback]
    split
    · split
      · exact .same rfl rfl rfl rfl rfl
      · exact .refl g
    · exact .refl g
  | handle c =>
    simp only [Gw.runHandler]
    split
    · split
      · refine (quiet_modify g c (fun x => { x with handled := x.handled + 1 }) (fun x hx => hx)).trans ?_
        split
        · simp only [Gw.commonCallback]
          split
          · split
            · simp only [Gw.commonCallback.notify]
              split <;> exact .same rfl rfl rfl rfl rfl
            · exact .same rfl rfl rfl rfl rfl
          · simp only [Gw.commonCallback.notify]
            split <;> exact .same rfl rfl rfl rfl rfl
        · exact .same rfl rfl rfl rfl rfl
      · exact .refl g
    · exact .refl g
  | tick => exact .same rfl rfl rfl rfl rfl

theorem quiet_icn {g g' : Gw} (h : Quiet g g') (hc : g.isClientNow = false) : g'.isClientNow = false := by
  simp only [Gw.isClientNow, Gw.attached, h.isClient, h.cmProto] at hc ⊢
  cases hp : g.cmProto with
  | none => simp
  | some c =>
    simp only [hp] at hc ⊢
    simp only [Bool.and_eq_false_imp] at hc ⊢
    intro hi
    exact h.down c (hc hi)

/-- What every reachable gateway satisfies (see `AskOk` for `U`). -/
structure GInv (U : Prop) (g : Gw) : Prop where
  reg : U → g.isClient = true → Registered g.log
  proto : ∀ c, g.protocol = some c → c < g.conns.length
  cm : ∀ c, g.cmProto = some c → c < g.conns.length

theorem GInv.quiet {U : Prop} {g g' : Gw} (h : GInv U g) (q : Quiet g g') (hl : g'.log = g.log) : GInv U g' :=
  ⟨fun u hc => by rw [hl]; exact h.reg u (q.isClient ▸ hc), fun c hc => by rw [q.len]; exact h.proto c (q.protocol ▸ hc),
    fun c hc => by rw [q.len]; exact h.cm c (q.cmProto ▸ hc)⟩

theorem Registered.snoc {l : List (Nat × Act)} (h : Registered l) (x : Nat × Act) (hx : ∀ c p, x.2 ≠ .ask c 12524 p) :
    Registered (l ++ [x]) := by
  obtain ⟨pre, t, post, h0, c, p, rfl, h1, h2⟩ := h
  refine ⟨pre, t, post ++ [x], h0, c, p, by simp, h1, ?_⟩
  intro y hy
  rcases List.mem_append.1 hy with hy | hy
  · exact h2 y hy
  · simp only [List.mem_singleton] at hy
    subst hy
    exact hx

theorem GInv.note {U : Prop} {g : Gw} (h : GInv U g) (t : Nat) (a : Act)
    (ha : U → g.isClient = true → ∀ c p, a ≠ .ask c 12524 p) : GInv U (g.note t a) :=
  ⟨fun u hc => (h.reg u hc).snoc _ (ha u hc), h.proto, h.cm⟩

theorem micro_inv {E : Env} {U : Prop} {g g' : Gw} (h : GInv U g) (m : Micro E U g g') : GInv U g' := by
  cases m with
  | upd t _ _ hu =>
    cases hu with
    | data => exact h.quiet (.same rfl rfl rfl rfl rfl) rfl
    | last => exact h.quiet (.same rfl rfl rfl rfl rfl) rfl
    | noVersion => exact h.quiet (.same rfl rfl rfl rfl rfl) rfl
    | pumps => exact h.quiet (.same rfl rfl rfl rfl rfl) rfl
    | unclient hl hc => exact ⟨fun u hc => (by cases hc), h.proto, h.cm⟩
    | client hl l h0 c p hg hlog =>
      refine ⟨fun u _ => ?_, h.proto, h.cm⟩
      refine ⟨l, t, [], h0, c, p, ?_, ?_, by simp⟩
      · exact hlog
      · have e := hg
        simp only [Gw.acts, hlog, List.filter_append, List.map_append] at e
        simp only [List.filter_cons, beq_self_eq_true, if_true, List.filter_nil, List.map_cons, List.map_nil] at e
        have e2 : h0 ++ [Act.ask c 12522 p, .got (.ok (some []))] = (h0 ++ [.ask c 12522 p]) ++ [.got (.ok (some []))] := by simp
        rw [e2] at e
        exact List.append_cancel_right e
    | disableKeepalive c => exact h.quiet (quiet_net _ _ _) rfl
    | unregisterAll c => exact h.quiet (quiet_net _ _ _) rfl
    | enableKeepalive c => exact h.quiet (quiet_net _ _ _) rfl
    | register c code => exact h.quiet (quiet_net _ _ _) rfl
    | release hl => exact ⟨h.reg, h.proto, h.cm⟩
    | attach c hc =>
      refine ⟨fun u hc => (by cases hc), h.proto, fun c' hc' => ?_⟩
      simp only [Gw.attachTo, Option.some.injEq] at hc'
      subst hc'
      exact hc
    | remember a => exact ⟨h.reg, h.proto, h.cm⟩
    | raw c b => exact h.quiet (quiet_modify g c _ (fun x hx => hx)) rfl
    | proto c m hc =>
      refine ⟨h.reg, fun c' hc' => ?_, h.cm⟩
      simp only [Gw.setProto, Option.some.injEq] at hc'
      subst hc'
      exact hc
    | listen cb code =>
      simp only [Gw.addListener]
      split <;> exact ⟨h.reg, h.proto, h.cm⟩
  | ask t c code data r _ ha =>
    simp only [Gw.ask]
    refine (h.quiet ((quiet_net g c (.call code data r)).trans (quiet_net _ c (.run _))) rfl).note _ _ ?_
    intro u hi c' p' he
    simp only [Act.ask.injEq] at he
    have := ((ha u).2 he.2.1).2.1
    simp only [Gw.net] at hi
    rw [this] at hi
    cases hi
  | got t o => exact h.note _ _ (by intros; simp)
  | opn t => exact h.note _ _ (by intros; simp)
  | cls t c force =>
    simp only [Gw.startClose]
    exact (h.quiet ((quiet_net g c (.close force)).trans (quiet_net _ c (.closeFinish _))) rfl).note _ _ (by intros; simp)
  | take t _ hl => exact ⟨h.reg, h.proto, h.cm⟩
  | waiters w => exact ⟨h.reg, h.proto, h.cm⟩
  | conn =>
    refine ⟨h.reg, fun c hc => ?_, fun c hc => ?_⟩
    · have := h.proto c hc
      simp only [Gw.addConn, List.length_append, List.length_singleton]
      omega
    · have := h.cm c hc
      simp only [Gw.addConn, List.length_append, List.length_singleton]
      omega
  | ping c => exact h.quiet (quiet_modify g c _ (fun x hx => hx)) rfl
  | unsub => exact h.quiet (.same rfl rfl rfl rfl rfl) rfl
  | env _ _ he => exact h.quiet (quiet_env he) he.log

theorem micro_len {E : Env} {U : Prop} {g g' : Gw} (m : Micro E U g g') : g.conns.length ≤ g'.conns.length := by
  cases m with
  | upd t _ _ hu =>
    cases hu with
    | disableKeepalive c => exact Nat.le_of_eq (quiet_net _ _ _).len.symm
    | unregisterAll c => exact Nat.le_of_eq (quiet_net _ _ _).len.symm
    | enableKeepalive c => exact Nat.le_of_eq (quiet_net _ _ _).len.symm
    | register c code => exact Nat.le_of_eq (quiet_net _ _ _).len.symm
    | raw c b => exact Nat.le_of_eq (List.length_modify _ _ _).symm
    | listen cb code =>
      simp only [Gw.addListener]
      split <;> exact Nat.le_refl _
    | _ => exact Nat.le_refl _
  | ask t c code data r => exact Nat.le_of_eq (quiet_ask _ _ _ _ _ _).len.symm
  | cls t c force => exact Nat.le_of_eq (quiet_close _ _ _ _).len.symm
  | conn => simp only [Gw.addConn, List.length_append]; omega
  | ping c => exact Nat.le_of_eq (List.length_modify _ _ _).symm
  | env _ _ he => exact Nat.le_of_eq (quiet_env he).len.symm
  | _ => exact Nat.le_refl _

theorem microBut_acts {E : Env} {U : Prop} {t : Nat} {g g' : Gw} (m : MicroBut E U t g g') : g'.acts t = g.acts t := by
  cases m with
  | upd t' hne _ _ hu =>
    cases hu with
    | listen cb code =>
      simp only [Gw.addListener]
      split <;> rfl
    | _ => rfl
  | ask t' c hne code data r => simp only [Gw.ask, acts_note_other _ hne, acts_net]
  | got t' hne o => exact acts_note_other _ hne _
  | opn t' hne => exact acts_note_other _ hne _
  | cls t' c hne force => simp only [Gw.startClose, acts_note_other _ hne, acts_net]
  | env _ _ he => exact he.acts t
  | _ => rfl

/-- Whoever holds the lock keeps it, and nobody else registers the client meanwhile. -/
theorem microBut_lock {E : Env} {U : Prop} {t : Nat} {g g' : Gw} (m : MicroBut E U t g g') (hl : g.lock = some t) :
    g'.lock = some t ∧ (GInv U g → g.isClientNow = false → g'.isClientNow = false) := by
  have q : ∀ {g' : Gw}, Quiet g g' → g'.lock = some t ∧ (GInv U g → g.isClientNow = false → g'.isClientNow = false) :=
    fun q => ⟨q.lock.trans hl, fun _ h => quiet_icn q h⟩
  cases m with
  | upd t' hne _ _ hu =>
    cases hu with
    | data => exact q (.same rfl rfl rfl rfl rfl)
    | last => exact q (.same rfl rfl rfl rfl rfl)
    | noVersion => exact q (.same rfl rfl rfl rfl rfl)
    | pumps => exact q (.same rfl rfl rfl rfl rfl)
    | unclient hl' => rw [hl] at hl'; cases hl'; exact absurd rfl hne
    | client hl' => rw [hl] at hl'; cases hl'; exact absurd rfl hne
    | disableKeepalive c => exact q (quiet_net _ _ _)
    | unregisterAll c => exact q (quiet_net _ _ _)
    | enableKeepalive c => exact q (quiet_net _ _ _)
    | register c code => exact q (quiet_net _ _ _)
    | release hl' => rw [hl] at hl'; cases hl'; exact absurd rfl hne
    | attach c => exact ⟨hl, fun _ _ => rfl⟩
    | remember a => exact q (.same rfl rfl rfl rfl rfl)
    | raw c b => exact q (quiet_modify g c _ (fun x hx => hx))
    | proto c m => exact ⟨hl, fun _ h => h⟩
    | listen cb code =>
      simp only [Gw.addListener]
      split <;> exact q (.same rfl rfl rfl rfl rfl)
  | ask t' c hne code data r => exact q (quiet_ask _ _ _ _ _ _)
  | got t' hne o => exact q (quiet_note _ _ _)
  | opn t' hne => exact q (quiet_note _ _ _)
  | cls t' c hne force => exact q (quiet_close _ _ _ _)
  | take t' hne _ hl' => rw [hl] at hl'; cases hl'
  | waiters w => exact q (.same rfl rfl rfl rfl rfl)
  | conn =>
    refine ⟨hl, fun hi hc => ?_⟩
    simp only [Gw.isClientNow, Gw.attached, Gw.addConn] at hc ⊢
    cases hp : g.cmProto with
    | none => simp
    | some c =>
      have hlt := hi.cm c hp
      simp only [hp, Gw.connected] at hc ⊢
      rw [List.getElem?_append_left hlt]
      exact hc
  | ping c => exact q (quiet_modify g c _ (fun x hx => hx))
  | unsub => exact q (.same rfl rfl rfl rfl rfl)
  | env _ _ he => exact q (quiet_env he)

end SL
