import Verif.Lemmas.Stages
import Verif.Props.ConnectProps
import Verif.Props.IdemProps
/-!
# C39: one call can reconnect without end

While the adapter accepts the login but refuses the configuration request, every reconnection of a call starts another one
inside itself.  `looping_step` follows one turn of that loop event by event; the connections made before do not matter.
-/
set_option linter.unusedVariables false
namespace SL
open Co (state modify makeRequest pause closeConn withLock tryExcept ofExcept)

/-- The gateway `g` with one more connection. -/
def Gw.plus (g : Gw) (x : Conn) (L : List (Nat × Act)) (P : Option Nat) (M : Val) (m : String) (Q : List Nat) (D : Val) : Gw :=
  { g with conns := g.conns ++ [x], log := L, protocol := P, last := M, mac := m, closedCalls := Q, data := D }

def Conn.ask (x : Conn) (code : Int) (data : Bytes) (r : Int) : Conn :=
  { x with w := (x.w.step (.call code data r)).step (.run x.w.reqs.length) }
def Conn.net (x : Conn) (e : Event) : Conn := { x with w := x.w.step e }
def Conn.reply (x : Conn) (id code : Int) (data : Bytes) : Conn :=
  (x.net (.data ((makeMessage id code data).toOption.getD []))).net (.resume id.toNat)

section
variable {g : Gw} {x : Conn} {L : List (Nat × Act)} {P : Option Nat} {M : Val} {m : String} {Q : List Nat} {D : Val}

theorem modify_last {α : Type} (l : List α) (x : α) (f : α → α) : (l ++ [x]).modify l.length f = l ++ [f x] := by
  induction l with
  | nil => rfl
  | cons a l ih => simp only [List.cons_append, List.length_cons, List.modify_succ_cons, ih]

theorem plus_at : (g.plus x L P M m Q D).conns[g.conns.length]? = some x := by simp [Gw.plus]

theorem plus_net (e : Event) : (g.plus x L P M m Q D).net g.conns.length e = g.plus (x.net e) L P M m Q D := by
  simp only [Gw.net, Gw.plus, modify_last]; rfl

theorem plus_note (t : Nat) (a : Act) : (g.plus x L P M m Q D).note t a = g.plus x (L ++ [(t, a)]) P M m Q D := rfl

theorem plus_ask (t : Nat) (code : Int) (data : Bytes) (r : Int) : (g.plus x L P M m Q D).ask t g.conns.length code data r =
    (x.w.reqs.length, g.plus (x.ask code data r) (L ++ [(t, .ask g.conns.length code data)]) P M m Q D) := by
  simp only [Gw.ask, plus_at, plus_net, plus_note]; rfl

theorem plus_outcome (r : Nat) : (g.plus x L P M m Q D).outcome g.conns.length r = x.w.outcome r := by
  simp only [Gw.outcome, plus_at]; rfl

theorem plus_connected : (g.plus x L P M m Q D).connected g.conns.length = x.w.p.connected := by
  simp only [Gw.connected, plus_at]

theorem plus_isConnected : (g.plus x L (some g.conns.length) M m Q D).isConnected = x.w.p.connected := by
  simp only [Gw.isConnected]
  exact plus_connected


theorem plus_reply (E : Env) (ts : List Task) (id code : Int) (data : Bytes) :
    (Sys.mk (g.plus x L P M m Q D) ts).run E (reply g.conns.length id code data) = Sys.mk (g.plus (x.reply id code data) L P M m Q D) ts := by
  simp only [SL.reply, Sys.run, List.foldl_cons, List.foldl_nil, Sys.step, Event.external, if_true, Gw.lostCallback, plus_net]
  rfl

/-- Task 1 is resumed and a request has ended. -/
theorem plus_resume (E : Env) (d : Task) (r : Nat) (k : Except PyErr (Option Bytes) → Co Res) (o : Except PyErr (Option Bytes))
    (h : x.w.outcome r = some o) :
    (Sys.mk (g.plus x L P M m Q D) [d, .request g.conns.length r k]).step E (.resume 1) =
      (Sys.mk (g.plus x L P M m Q D) [d, .request g.conns.length r k]).put 1 (settle 1 (k o) (g.plus x (L ++ [(1, .got o)]) P M m Q D)) := by
  simp only [Sys.step, List.getElem?_cons_succ, List.getElem?_cons_zero, plus_outcome, h, plus_note]

/-- Task 1 starts a request that is not answered at once. -/
theorem plus_settle (code : Int) (data : Bytes) (r : Int) (k : Except PyErr (Option Bytes) → Co Res)
    (h : (x.ask code data r).w.outcome x.w.reqs.length = none) :
    settle 1 (.request g.conns.length code data r k) (g.plus x L P M m Q D) =
      (.request g.conns.length x.w.reqs.length k, g.plus (x.ask code data r) (L ++ [(1, .ask g.conns.length code data)]) P M m Q D) := by
  simp only [settle, plus_ask, plus_outcome, h]

/-- Task 1's TCP connection is made. -/
theorem loop_opened_step (E : Env) (d : Task) (r : Int) (k : Except PyErr Bool → Co Res) :
    (Sys.mk g [d, .opening r k]).step E (.opened 1 true) =
      Sys.mk (g.plus { raw := [helloBytes] } g.log g.protocol g.last g.mac g.closedCalls g.data)
        [d, .sleeping (fun o => ((ofExcept o : Co Unit) >>= fun _ => pauseCo E r g.conns.length).bindE k)] := by
  simp only [Sys.step, List.getElem?_cons_succ, List.getElem?_cons_zero, if_true, afterOpen_eq]
  have : settle 1 ((Co.modify (·.writeRaw g.conns.length helloBytes) >>= fun _ => pause >>= fun _ => pauseCo E r g.conns.length).bindE k) g.addConn =
      (.sleeping (fun o => ((ofExcept o : Co Unit) >>= fun _ => pauseCo E r g.conns.length).bindE k), (g.addConn).apply (·.writeRaw g.conns.length helloBytes)) := rfl
  rw [this]
  simp only [Sys.put, List.set_cons_succ, List.set_cons_zero, Gw.apply, Gw.writeRaw, Gw.addConn, modify_last]
  rfl

/-- ... it pauses and asks for the challenge. -/
theorem loop_pause_step (E : Env) (d : Task) (r : Int) (k : Except PyErr Bool → Co Res) (hc : x.w.p.connected = true)
    (h : (x.ask 14 [] r).w.outcome x.w.reqs.length = none) :
    (Sys.mk (g.plus x L P M m Q D) [d, .sleeping (fun o => ((ofExcept o : Co Unit) >>= fun _ => pauseCo E r g.conns.length).bindE k)]).step E (.resume 1) =
      Sys.mk (g.plus (x.ask 14 [] r) (L ++ [(1, .ask g.conns.length 14 [])]) P M m Q D)
        [d, .request g.conns.length x.w.reqs.length (fun o => ((ofExcept o : Co (Option Bytes)) >>= challengeCo E r g.conns.length).bindE k)] := by
  simp only [Sys.step, List.getElem?_cons_succ, List.getElem?_cons_zero]
  have e : settle 1 (((ofExcept (.ok ()) : Co Unit) >>= fun _ => pauseCo E r g.conns.length).bindE k) (g.plus x L P M m Q D) =
      settle 1 ((if (g.plus x L P M m Q D).connected g.conns.length then makeRequest g.conns.length 14 [] r >>= challengeCo E r g.conns.length
        else .throw .slConnection : Co Bool).bindE k) (g.plus x L P M m Q D) := rfl
  rw [e, plus_connected, hc]
  change Sys.put _ 1 (settle 1 (.request g.conns.length 14 [] r (fun o => ((ofExcept o : Co (Option Bytes)) >>= challengeCo E r g.conns.length).bindE k)) _) = _
  rw [plus_settle _ _ _ _ h]
  rfl

/-- ... it gets the MAC address and logs in. -/
theorem loop_challenge_step (E : Env) (d : Task) (r : Int) (i : Nat) (k : Except PyErr Bool → Co Res) (b : Bytes) (a : String)
    (ho : x.w.outcome i = some (.ok (some b))) (hb : decodeMessageString b = .ok a)
    (h : (x.ask 27 loginBytes r).w.outcome x.w.reqs.length = none) :
    (Sys.mk (g.plus x L P M m Q D) [d, .request g.conns.length i (fun o => ((ofExcept o : Co (Option Bytes)) >>= challengeCo E r g.conns.length).bindE k)]).step E (.resume 1) =
      Sys.mk (g.plus (x.ask 27 loginBytes r) (L ++ [(1, .got (.ok (some b)))] ++ [(1, .ask g.conns.length 27 loginBytes)]) P M m Q D)
        [d, .request g.conns.length x.w.reqs.length (fun o => ((ofExcept o : Co (Option Bytes)) >>= loginCo E g.conns.length a).bindE k)] := by
  rw [plus_resume E d i _ _ ho, Co.ok_bind]
  unfold challengeCo
  simp only [hb]
  rw [Co.ok_bind, macCo_eq]
  change Sys.put _ 1 (settle 1 (.request g.conns.length 27 loginBytes r (fun o => ((ofExcept o : Co (Option Bytes)) >>= loginCo E g.conns.length a).bindE k)) _) = _
  rw [plus_settle _ _ _ _ h]
  rfl

/-- ... it is let in and asks for the version. -/
theorem loop_login_step (E : Env) (d : Task) (i : Nat) (k : Except PyErr Bool → Co Res) (b : Bytes) (a : String)
    (ho : x.w.outcome i = some (.ok (some b)))
    (h : (x.ask 8120 [] g.maxRetries).w.outcome x.w.reqs.length = none) :
    (Sys.mk (g.plus x L P M m Q D) [d, .request g.conns.length i (fun o => ((ofExcept o : Co (Option Bytes)) >>= loginCo E g.conns.length a).bindE k)]).step E (.resume 1) =
      Sys.mk (g.plus (x.ask 8120 [] g.maxRetries) (L ++ [(1, .got (.ok (some b)))] ++ [(1, .ask g.conns.length 8120 [])]) (some g.conns.length) M a Q D)
        [d, .request g.conns.length x.w.reqs.length (fun o => ((ofExcept o : Co (Option Bytes)) >>= verCo E).bindE k)] := by
  rw [plus_resume E d i _ _ ho, Co.ok_bind]
  have e : settle 1 ((loginCo E g.conns.length a (some b)).bindE k) (g.plus x (L ++ [(1, .got (.ok (some b)))]) P M m Q D) =
      settle 1 (.request g.conns.length 8120 [] g.maxRetries (fun o => ((ofExcept o : Co (Option Bytes)) >>= verCo E).bindE k))
        (g.plus x (L ++ [(1, .got (.ok (some b)))]) (some g.conns.length) M a Q D) := by
    change settle 1 (.request g.conns.length 8120 [] g.maxRetries _) _ = _
    congr 2
    funext o
    match o with
    | .error e => rfl
    | .ok none => rfl
    | .ok (some []) => rfl
    | .ok (some (b :: bs)) => rfl
  rw [e, plus_settle _ _ _ _ h]
  rfl



/-- What `async_connect` does with the outcome `y` of the configuration request. -/
def loadedCo (y : Co (Option Bytes)) : Co Bool :=
  (y >>= fun raw =>
    match raw with
    | some b => Co.modify (·.putLast [.s "config"] (.bytes b))
    | none => return ()) >>= fun _ => state >>= fun g =>
    match g.protocol with
    | some c => attach c >>= fun _ => return true
    | none => .throw .attributeError

/-- A configuration request that has to reconnect. -/
def againCo (E : Env) (r : Int) : Co (Option Bytes) :=
  asyncDisconnect true >>= fun _ => pause >>= fun _ => attemptRequest r (requestConfig E)

/-- What is left of it when the connection is down. -/
def onceMore (E : Env) (r : Int) (e : PyErr) : Co (Option Bytes) := if e.isComm then againCo E r else .throw e

theorem verTail_eq (E : Env) : verTail E = .get fun g => loadedCo (tryExcept (attemptRequest g.maxRetries (requestConfig E)) (onceMore E g.maxRetries)) := rfl

/-- The configuration request. -/
def cfgBytes : Bytes := [0, 0, 0, 0, 0, 0, 0, 0]

theorem cfg_bytes : packObjs [.int 0, .int 0] = .ok cfgBytes := by decide +kernel

theorem cfg_request (E : Env) (c : Nat) (r : Int) : ∃ κ, requestConfig E c r = .request c 12532 cfgBytes r κ ∧ ∀ e, κ (.error e) = .throw e := by
  unfold requestConfig queryRequest
  rw [cfg_bytes]
  exact ⟨_, rfl, fun _ => rfl⟩

theorem attempt_go (E : Env) (r : Int) (h : PyErr → Co (Option Bytes)) (k : Except PyErr Bool → Co Res) (G : Gw) (c : Nat)
    (hconn : G.isConnected = true) (hpro : G.protocol = some c) :
    settle 1 ((loadedCo (tryExcept (attemptRequest r (requestConfig E)) h)).bindE k) G =
      settle 1 ((loadedCo (tryExcept (requestConfig E c r) h)).bindE k) G := by
  have e1 : settle 1 ((loadedCo (tryExcept (attemptRequest r (requestConfig E)) h)).bindE k) G =
      settle 1 ((loadedCo (tryExcept ((if G.isConnected then Co.ret true else
        .upd (·.remember {}) (.get fun g => if g.noIp then .throw .slError else .openConn g.maxRetries ofExcept) : Co Bool) >>= fun ok =>
        if ok then state >>= fun g => match g.protocol with | some c => requestConfig E c r | none => .throw .attributeError
        else .throw .attributeError) h)).bindE k) G := rfl
  rw [e1, hconn]
  have e2 : settle 1 ((loadedCo (tryExcept ((if true = true then Co.ret true else
        .upd (·.remember {}) (.get fun g => if g.noIp then .throw .slError else .openConn g.maxRetries ofExcept) : Co Bool) >>= fun ok =>
        if ok then state >>= fun g => match g.protocol with | some c => requestConfig E c r | none => .throw .attributeError
        else .throw .attributeError) h)).bindE k) G =
      settle 1 ((loadedCo (tryExcept (match G.protocol with | some c => requestConfig E c r | none => .throw .attributeError) h)).bindE k) G := rfl
  rw [e2, hpro]

theorem verTail_go (E : Env) (k : Except PyErr Bool → Co Res) (G : Gw) (c : Nat) (hconn : G.isConnected = true) (hpro : G.protocol = some c) :
    ∃ K, (∀ e : PyErr, e.isComm = true → K (.error e) = (loadedCo (againCo E G.maxRetries)).bindE k) ∧
      settle 1 ((verTail E).bindE k) G = settle 1 (.request c 12532 cfgBytes G.maxRetries K) G := by
  have e0 : settle 1 ((verTail E).bindE k) G =
    settle 1 ((loadedCo (tryExcept (attemptRequest G.maxRetries (requestConfig E)) (onceMore E G.maxRetries))).bindE k) G := rfl
  rw [e0, attempt_go E _ _ k G c hconn hpro]
  obtain ⟨κ, hκ, he⟩ := cfg_request E c G.maxRetries
  rw [hκ]
  refine ⟨fun o => (loadedCo (tryExcept (κ o) (onceMore E G.maxRetries))).bindE k, fun e h => ?_, rfl⟩
  simp only [he]
  have : tryExcept (.throw e : Co (Option Bytes)) (onceMore E G.maxRetries) = againCo E G.maxRetries := by
    change onceMore E G.maxRetries e = _
    simp only [onceMore, h, if_true]
  rw [this]

/-- ... it gets the version and asks for the configuration. -/
theorem loop_version_step (E : Env) (d : Task) (i : Nat) (k : Except PyErr Bool → Co Res) (b : UInt8) (bs : Bytes) (D' : Val)
    (ho : x.w.outcome i = some (.ok (some (b :: bs))))
    (hd : decodeWith (Decoder.version.prog E.pyFloat) (b :: bs) D = (.ok (), D'))
    (hv : (match getValue false [.s "adapter", .s "firmware"] D' with | .ok v => v.truthy | .error _ => false) = true)
    (hc : x.w.p.connected = true)
    (h : (x.ask 12532 cfgBytes g.maxRetries).w.outcome x.w.reqs.length = none) :
    ∃ M' K, (∀ e : PyErr, e.isComm = true → K (.error e) = (loadedCo (againCo E g.maxRetries)).bindE k) ∧
    (Sys.mk (g.plus x L (some g.conns.length) M m Q D) [d, .request g.conns.length i (fun o => ((ofExcept o : Co (Option Bytes)) >>= verCo E).bindE k)]).step E (.resume 1) =
      Sys.mk (g.plus (x.ask 12532 cfgBytes g.maxRetries) (L ++ [(1, .got (.ok (some (b :: bs))))] ++ [(1, .ask g.conns.length 12532 cfgBytes)]) (some g.conns.length) M' m Q D')
        [d, .request g.conns.length x.w.reqs.length K] := by
  rw [plus_resume E d i _ _ ho, Co.ok_bind]
  have e0 : settle 1 ((verCo E (some (b :: bs))).bindE k) (g.plus x (L ++ [(1, .got (.ok (some (b :: bs))))]) (some g.conns.length) M m Q D) =
      settle 1 ((((ofExcept (decodeWith (Decoder.version.prog E.pyFloat) (b :: bs) D).1 : Co Unit) >>= fun _ => return some (b :: bs)) >>= fun raw =>
        Co.modify (·.putLast [.s "version"] (match raw with | some b => .bytes b | none => .null)) >>= fun _ =>
        state >>= fun g => if g.hasVersion then verTail E else return false).bindE k)
        (g.plus x (L ++ [(1, .got (.ok (some (b :: bs))))]) (some g.conns.length) M m Q (decodeWith (Decoder.version.prog E.pyFloat) (b :: bs) D).2) := by
    unfold verCo
    simp only [Co.assoc]
    rfl
  refine ⟨Val.put [.s "version"] (.bytes (b :: bs)) M, ?_⟩
  have e1 : settle 1 ((((ofExcept (.ok ()) : Co Unit) >>= fun _ => (return some (b :: bs) : Co (Option Bytes))) >>= fun raw =>
        Co.modify (·.putLast [.s "version"] (match raw with | some b => .bytes b | none => .null)) >>= fun _ =>
        state >>= fun g => if g.hasVersion then verTail E else return false).bindE k)
        (g.plus x (L ++ [(1, .got (.ok (some (b :: bs))))]) (some g.conns.length) M m Q D') =
      settle 1 ((if (g.plus x (L ++ [(1, .got (.ok (some (b :: bs))))]) (some g.conns.length) (Val.put [.s "version"] (.bytes (b :: bs)) M) m Q D').hasVersion then verTail E else return false).bindE k)
        (g.plus x (L ++ [(1, .got (.ok (some (b :: bs))))]) (some g.conns.length) (Val.put [.s "version"] (.bytes (b :: bs)) M) m Q D') := rfl
  have e01 := (e0.trans (by rw [hd]; rfl)).trans e1
  rw [e01]
  have e2 : (g.plus x (L ++ [(1, .got (.ok (some (b :: bs))))]) (some g.conns.length) (Val.put [.s "version"] (.bytes (b :: bs)) M) m Q D').hasVersion = true := hv
  rw [e2, if_pos rfl]
  obtain ⟨K, hK, hs⟩ := verTail_go E k (g.plus x (L ++ [(1, .got (.ok (some (b :: bs))))]) (some g.conns.length) (Val.put [.s "version"] (.bytes (b :: bs)) M) m Q D')
    g.conns.length (by rw [plus_isConnected, hc]) rfl
  refine ⟨K, hK, ?_⟩
  rw [hs]
  have hr : (g.plus x (L ++ [(1, .got (.ok (some (b :: bs))))]) (some g.conns.length) (Val.put [.s "version"] (.bytes (b :: bs)) M) m Q D').maxRetries = g.maxRetries := rfl
  rw [hr, plus_settle _ _ _ _ h]
  rfl

/-- The connection is closed. -/
def Conn.close (x : Conn) : Conn := (x.net (.close true)).net (.closeFinish x.w.closers.length)

/-- ... the configuration request fails and it closes the connection. -/
theorem loop_reject_step (E : Env) (d : Task) (i : Nat) (k : Except PyErr Bool → Co Res) (K : Except PyErr (Option Bytes) → Co Res) (r : Int) (e : PyErr)
    (hK : K (.error e) = (loadedCo (againCo E r)).bindE k) (ho : x.w.outcome i = some (.error e)) (hcl : g.isClient = false)
    (hn : (x.close.w.closers[x.w.closers.length]? == some .done || x.close.w.closers[x.w.closers.length]? == some .cancelled) = false) :
    ∃ K', K' (.ok ()) = (loadedCo (pause >>= fun _ => attemptRequest r (requestConfig E))).bindE k ∧
    (Sys.mk (g.plus x L (some g.conns.length) M m Q D) [d, .request g.conns.length i K]).step E (.resume 1) =
      Sys.mk (g.plus x.close (L ++ [(1, .got (.error e))] ++ [(1, .cls g.conns.length true)]) (some g.conns.length) M m Q D)
        [d, .closing g.conns.length x.w.closers.length K'] := by
  rw [plus_resume E d i _ _ ho, hK]
  generalize hG : g.plus x (L ++ [(1, .got (.error e))]) (some g.conns.length) M m Q D = G
  have hnow : G.isClientNow = false := by
    rw [← hG]
    simp only [Gw.isClientNow]
    have : (g.plus x (L ++ [(1, .got (.error e))]) (some g.conns.length) M m Q D).isClient = g.isClient := rfl
    rw [this, hcl]; rfl
  have hpro : G.protocol = some g.conns.length := by rw [← hG]; rfl
  have e1 : settle 1 ((loadedCo (againCo E r)).bindE k) G = settle 1 ((loadedCo ((whenCo G.isClientNow unsubscribeGateway >>= fun _ => state >>= fun g =>
      (match g.protocol with | some c => closeConn c true | none => .throw .attributeError)) >>= fun _ => pause >>= fun _ => attemptRequest r (requestConfig E))).bindE k) G := rfl
  rw [e1, hnow]
  have e2 : settle 1 ((loadedCo ((whenCo false unsubscribeGateway >>= fun _ => state >>= fun g =>
      (match g.protocol with | some c => closeConn c true | none => .throw .attributeError)) >>= fun _ => pause >>= fun _ => attemptRequest r (requestConfig E))).bindE k) G =
      settle 1 ((loadedCo ((match G.protocol with | some c => closeConn c true | none => .throw .attributeError) >>= fun _ => pause >>= fun _ => attemptRequest r (requestConfig E))).bindE k) G := rfl
  rw [e2, hpro]
  refine ⟨fun o => (loadedCo ((ofExcept o : Co Unit) >>= fun _ => pause >>= fun _ => attemptRequest r (requestConfig E))).bindE k, rfl, ?_⟩
  change Sys.put _ 1 (settle 1 (.close g.conns.length true (fun o => (loadedCo ((ofExcept o : Co Unit) >>= fun _ => pause >>= fun _ => attemptRequest r (requestConfig E))).bindE k)) G) = _
  have e3 : (g.plus x (L ++ [(1, .got (.error e))]) (some g.conns.length) M m Q D).startClose 1 g.conns.length true =
      (x.w.closers.length, g.plus x.close (L ++ [(1, .got (.error e))] ++ [(1, .cls g.conns.length true)]) (some g.conns.length) M m Q D) := by
    simp only [Gw.startClose, plus_at, plus_net, plus_note]; rfl
  rw [← hG]
  simp only [settle, e3, Gw.closeEnded, plus_at, hn]
  rfl

/-- ... the connection goes down. -/
theorem loop_lost_step (E : Env) (ts : List Task) (e : Event) (he : e.external = true) :
    ∃ Q', (Sys.mk (g.plus x L P M m Q D) ts).step E (.net g.conns.length e) = Sys.mk (g.plus (x.net e) L P M m Q' D) ts := by
  simp only [Sys.step, he, if_true]
  have : ∃ Q', (g.plus x L P M m Q D).lostCallback g.conns.length e = g.plus x L P M m Q' D := by
    cases e <;> first
      | exact ⟨Q, rfl⟩
      | (simp only [Gw.lostCallback]
         split
         · exact ⟨_, rfl⟩
         · exact ⟨Q, rfl⟩)
  obtain ⟨Q', h⟩ := this
  exact ⟨Q', by rw [h, plus_net]⟩

/-- ... and it connects once more. -/
theorem loop_again_step (E : Env) (d : Task) (i : Nat) (k : Except PyErr Bool → Co Res) (K' : Except PyErr Unit → Co Res) (r : Int)
    (hK : K' (.ok ()) = (loadedCo (pause >>= fun _ => attemptRequest r (requestConfig E))).bindE k)
    (hx : x.w.closers[i]? = some .done) (hc : x.w.p.connected = false) (hip : g.noIp = false) :
    ∃ k' g', (Sys.mk (g.plus x L (some g.conns.length) M m Q D) [d, .closing g.conns.length i K']).run E [.resume 1, .resume 1] =
      Sys.mk g' [d, .opening g.maxRetries k'] ∧ g'.log = L ++ [(1, .opn (g.ip.getD "") g.port)] ∧ g'.data = D ∧ g'.isClient = g.isClient ∧
      g'.maxRetries = g.maxRetries ∧ g'.noIp = false ∧ g'.conns.length = g.conns.length + 1 := by
  have e1 : (Sys.mk (g.plus x L (some g.conns.length) M m Q D) [d, .closing g.conns.length i K']).step E (.resume 1) =
      Sys.mk (g.plus x L (some g.conns.length) M m Q D) [d, .sleeping (fun o => (loadedCo ((ofExcept o : Co Unit) >>= fun _ => attemptRequest r (requestConfig E))).bindE k)] := by
    simp only [Sys.step, List.getElem?_cons_succ, List.getElem?_cons_zero, Gw.closeEnded, Gw.closeResult, plus_at, hx]
    simp only [beq_self_eq_true, Bool.true_or, if_true, reduceCtorEq, Option.some.injEq, if_false, hK]
    rfl
  simp only [Sys.run, List.foldl_cons, List.foldl_nil, e1]
  simp only [Sys.step, List.getElem?_cons_succ, List.getElem?_cons_zero]
  generalize hG : g.plus x L (some g.conns.length) M m Q D = G
  have hconn : G.isConnected = false := by rw [← hG, plus_isConnected, hc]
  have e2 : settle 1 ((loadedCo ((ofExcept (.ok ()) : Co Unit) >>= fun _ => attemptRequest r (requestConfig E))).bindE k) G =
      settle 1 ((loadedCo ((if G.isConnected then Co.ret true else
        .upd (·.remember {}) (.get fun g => if g.noIp then .throw .slError else .openConn g.maxRetries ofExcept) : Co Bool) >>= fun ok =>
        if ok then state >>= fun g => match g.protocol with | some c => requestConfig E c r | none => .throw .attributeError
        else .throw .attributeError)).bindE k) G := rfl
  rw [e2, hconn]
  have hip' : (G.apply (·.remember {})).noIp = false := by rw [← hG]; exact hip
  have e3 : settle 1 ((loadedCo ((if false = true then Co.ret true else
        .upd (·.remember {}) (.get fun g => if g.noIp then .throw .slError else .openConn g.maxRetries ofExcept) : Co Bool) >>= fun ok =>
        if ok then state >>= fun g => match g.protocol with | some c => requestConfig E c r | none => .throw .attributeError
        else .throw .attributeError)).bindE k) G =
      settle 1 ((loadedCo ((if (G.apply (·.remember {})).noIp then .throw .slError else .openConn (G.apply (·.remember {})).maxRetries ofExcept : Co Bool) >>= fun ok =>
        if ok then state >>= fun g => match g.protocol with | some c => requestConfig E c r | none => .throw .attributeError
        else .throw .attributeError)).bindE k) (G.apply (·.remember {})) := rfl
  rw [e3, hip']
  refine ⟨fun o => (loadedCo ((ofExcept o : Co Bool) >>= fun ok =>
        if ok then state >>= fun g => match g.protocol with | some c => requestConfig E c r | none => .throw .attributeError
        else .throw .attributeError)).bindE k, (G.apply (·.remember {})).note 1 (.opn (g.ip.getD "") g.port), ?_, ?_⟩
  rotate_left
  · rw [← hG]
    refine ⟨rfl, rfl, rfl, rfl, hip, ?_⟩
    simp [Gw.apply, Gw.remember, Gw.note, Gw.plus]
  · rw [← hG]
    rfl


end

/-- The text of the version answer, and of the challenge. -/
def verText : Bytes := wireText "POOL: 5.2 Build 736.0 Rel"
def macText : Bytes := wireText "00-C0-33-00-00-01"

def lc0 : Conn := { raw := [helloBytes] }
def lc1 : Conn := lc0.ask 14 [] 1
def lc2 : Conn := lc1.reply 0 15 macText
def lc3 : Conn := lc2.ask 27 loginBytes 1
def lc4 : Conn := lc3.reply 1 28 []
def lc5 : Conn := lc4.ask 8120 [] 1
def lc6 : Conn := lc5.reply 2 8121 verText
def lc7 : Conn := lc6.ask 12532 cfgBytes 1
def lc8 : Conn := lc7.reply 3 13 []
def lc9 : Conn := lc8.close
def lc10 : Conn := (lc9.net .lost).net (.closeFinish 0)

/-- What the data are when only the version is known. -/
def verData : Val := (decodeWith (Decoder.version.prog sampleEnv.pyFloat) verText (.dict [])).2

theorem verData_ok : (decodeWith (Decoder.version.prog sampleEnv.pyFloat) verText (.dict [])).1 = .ok () := by decide +kernel

theorem verData_again : decodeWith (Decoder.version.prog sampleEnv.pyFloat) verText verData = (.ok (), verData) := by
  rw [verData, C62_idempotent sampleEnv.pyFloat .version verText (.dict []) Reachable.init]
  exact Prod.ext verData_ok rfl

theorem ver_cons : ∃ b bs, verText = b :: bs := by
  have h : verText ≠ [] := by decide +kernel
  cases hv : verText with
  | nil => exact absurd hv h
  | cons b bs => exact ⟨b, bs, rfl⟩

/-- One call, waiting for its TCP connection, on a gateway that knows the adapter's version. -/
structure Looping (s : Sys) (n : Nat) : Prop where
  tasks : ∃ d k, s.tasks = [d, .opening 1 k]
  ip : s.g.noIp = false
  retries : s.g.maxRetries = 1
  data : s.g.data = verData
  client : s.g.isClient = false
  count : openings (s.g.acts 1) = n

/-- The adapter accepts the login and refuses the configuration request: the call is waiting for its next connection. -/
theorem looping_step {s : Sys} {n : Nat} (h : Looping s n) :
    Looping (s.run sampleEnv (loginEvs 1 s.g.conns.length ++ rejectEvs 1 s.g.conns.length 3)) (n + 1) ∧
    (s.run sampleEnv (loginEvs 1 s.g.conns.length ++ rejectEvs 1 s.g.conns.length 3)).g.conns.length = s.g.conns.length + 1 := by
  obtain ⟨⟨d, k, ht⟩, hip, hr, hd, hcl, hn⟩ := h
  obtain ⟨g, ts⟩ := s
  simp only at *
  subst ht
  obtain ⟨b, bs, hb⟩ := ver_cons
  have hv := verData_again
  rw [hb] at hv
  -- every event in turn
  have key : ∃ k' g', (Sys.mk g [d, .opening 1 k]).run sampleEnv (loginEvs 1 g.conns.length ++ rejectEvs 1 g.conns.length 3) = Sys.mk g' [d, .opening 1 k'] ∧
      g'.log = g.log ++ [(1, .ask g.conns.length 14 []), (1, .got (.ok (some macText))), (1, .ask g.conns.length 27 loginBytes), (1, .got (.ok (some []))),
        (1, .ask g.conns.length 8120 []), (1, .got (.ok (some verText))), (1, .ask g.conns.length 12532 cfgBytes), (1, .got (.error .slLogin)),
        (1, .cls g.conns.length true), (1, .opn (g.ip.getD "") g.port)] ∧ g'.data = verData ∧ g'.isClient = g.isClient ∧
      g'.maxRetries = g.maxRetries ∧ g'.noIp = false ∧ g'.conns.length = g.conns.length + 1 := by
    have one : ∀ (s : Sys) (e : Ev), s.run sampleEnv [e] = s.step sampleEnv e := fun _ _ => rfl
    simp only [loginEvs, rejectEvs, sys_run_append, one]
    have e1 : (Sys.mk g [d, .opening 1 k]).run sampleEnv [.opened 1 true, .resume 1] =
        Sys.mk (g.plus lc1 (g.log ++ [(1, .ask g.conns.length 14 [])]) g.protocol g.last g.mac g.closedCalls g.data)
          [d, .request g.conns.length lc0.w.reqs.length (fun o => ((ofExcept o : Co (Option Bytes)) >>= challengeCo sampleEnv 1 g.conns.length).bindE k)] := by
      simp only [Sys.run, List.foldl_cons, List.foldl_nil, loop_opened_step]
      exact loop_pause_step (x := lc0) sampleEnv d 1 k rfl (by decide +kernel)
    rw [e1, plus_reply]
    have e2 := loop_challenge_step (g := g) (x := lc2) (L := g.log ++ [(1, .ask g.conns.length 14 [])]) (P := g.protocol) (M := g.last) (m := g.mac) (Q := g.closedCalls) (D := g.data)
      sampleEnv d 1 lc0.w.reqs.length k macText "00-C0-33-00-00-01" (by decide +kernel) (by decide +kernel) (by decide +kernel)
    have c2 : lc1.reply 0 15 (wireText "00-C0-33-00-00-01") = lc2 := rfl
    rw [c2, e2, plus_reply]
    have e3 := loop_login_step (g := g) (x := lc4) (L := g.log ++ [(1, .ask g.conns.length 14 [])] ++ [(1, .got (.ok (some macText)))] ++ [(1, .ask g.conns.length 27 loginBytes)])
      (P := g.protocol) (M := g.last) (m := g.mac) (Q := g.closedCalls) (D := g.data)
      sampleEnv d lc2.w.reqs.length k [] "00-C0-33-00-00-01" (by decide +kernel) (by rw [hr]; decide +kernel)
    have c4 : (lc2.ask 27 loginBytes 1).reply 1 28 [] = lc4 := rfl
    rw [c4, e3, plus_reply, hr, hd]
    have c6 : (lc4.ask 8120 [] 1).reply 2 8121 (wireText "POOL: 5.2 Build 736.0 Rel") = lc6 := rfl
    rw [c6]
    obtain ⟨M', K, hK, e4⟩ := loop_version_step (g := g) (x := lc6)
      (L := g.log ++ [(1, .ask g.conns.length 14 [])] ++ [(1, .got (.ok (some macText)))] ++ [(1, .ask g.conns.length 27 loginBytes)] ++ [(1, .got (.ok (some [])))] ++ [(1, .ask g.conns.length 8120 [])])
      (M := g.last) (m := "00-C0-33-00-00-01") (Q := g.closedCalls) (D := verData)
      sampleEnv d lc4.w.reqs.length k b bs verData (by rw [← hb]; decide +kernel) hv (by decide +kernel) (by decide +kernel) (by rw [hr]; decide +kernel)
    rw [e4, hr, plus_reply]
    have c8 : (lc6.ask 12532 cfgBytes 1).reply 3 13 [] = lc8 := rfl
    rw [c8]
    have five : ∀ (s : Sys) (a b c e f : Ev), s.run sampleEnv [a, b, c, e, f] = ((((s.step sampleEnv a).step sampleEnv b).step sampleEnv c).run sampleEnv [e, f]) := fun _ _ _ _ _ _ => rfl
    rw [five]
    obtain ⟨K', hK', e5⟩ := loop_reject_step (g := g) (x := lc8)
      (L := g.log ++ [(1, .ask g.conns.length 14 [])] ++ [(1, .got (.ok (some macText)))] ++ [(1, .ask g.conns.length 27 loginBytes)] ++ [(1, .got (.ok (some [])))] ++ [(1, .ask g.conns.length 8120 [])] ++ [(1, .got (.ok (some (b :: bs))))] ++ [(1, .ask g.conns.length 12532 cfgBytes)])
      (M := M') (m := "00-C0-33-00-00-01") (Q := g.closedCalls) (D := verData)
      sampleEnv d lc6.w.reqs.length k K g.maxRetries .slLogin (hK _ rfl) (by decide +kernel) hcl (by decide +kernel)
    rw [e5]
    obtain ⟨Q', e6⟩ := loop_lost_step (g := g) (x := lc8.close)
      (L := g.log ++ [(1, .ask g.conns.length 14 [])] ++ [(1, .got (.ok (some macText)))] ++ [(1, .ask g.conns.length 27 loginBytes)] ++ [(1, .got (.ok (some [])))] ++ [(1, .ask g.conns.length 8120 [])] ++ [(1, .got (.ok (some (b :: bs))))] ++ [(1, .ask g.conns.length 12532 cfgBytes)] ++ [(1, .got (.error .slLogin))] ++ [(1, .cls g.conns.length true)])
      (P := some g.conns.length) (M := M') (m := "00-C0-33-00-00-01") (Q := g.closedCalls) (D := verData) sampleEnv [d, .closing g.conns.length lc8.w.closers.length K'] .lost rfl
    rw [e6]
    obtain ⟨Q'', e7⟩ := loop_lost_step (g := g) (x := lc8.close.net .lost)
      (L := g.log ++ [(1, .ask g.conns.length 14 [])] ++ [(1, .got (.ok (some macText)))] ++ [(1, .ask g.conns.length 27 loginBytes)] ++ [(1, .got (.ok (some [])))] ++ [(1, .ask g.conns.length 8120 [])] ++ [(1, .got (.ok (some (b :: bs))))] ++ [(1, .ask g.conns.length 12532 cfgBytes)] ++ [(1, .got (.error .slLogin))] ++ [(1, .cls g.conns.length true)])
      (P := some g.conns.length) (M := M') (m := "00-C0-33-00-00-01") (Q := Q') (D := verData) sampleEnv [d, .closing g.conns.length lc8.w.closers.length K'] (.closeFinish 0) rfl
    rw [e7]
    have c10 : (lc8.close.net .lost).net (.closeFinish 0) = lc10 := rfl
    rw [c10]
    obtain ⟨k', g', e8, f1, f2, f3, f4, f5, f6⟩ := loop_again_step (g := g) (x := lc10)
      (L := g.log ++ [(1, .ask g.conns.length 14 [])] ++ [(1, .got (.ok (some macText)))] ++ [(1, .ask g.conns.length 27 loginBytes)] ++ [(1, .got (.ok (some [])))] ++ [(1, .ask g.conns.length 8120 [])] ++ [(1, .got (.ok (some (b :: bs))))] ++ [(1, .ask g.conns.length 12532 cfgBytes)] ++ [(1, .got (.error .slLogin))] ++ [(1, .cls g.conns.length true)])
      (M := M') (m := "00-C0-33-00-00-01") (Q := Q'') (D := verData) sampleEnv d lc8.w.closers.length k K' g.maxRetries hK' (by decide +kernel) (by decide +kernel) hip
    refine ⟨k', g', ?_, ?_, f2, f3, f4.trans hr, f5, f6⟩
    · rw [e8, hr]
    · rw [f1, hb]
      simp only [List.append_assoc, List.cons_append, List.nil_append]
  obtain ⟨k', g', e, f1, f2, f3, f4, f5, f6⟩ := key
  rw [e]
  refine ⟨⟨⟨d, k', rfl⟩, f5, f4.trans hr, f2, f3.trans hcl, ?_⟩, f6⟩
  simp only [Gw.acts] at hn ⊢
  rw [f1]
  simp only [openings, List.filter_append, List.map_append, List.length_append] at hn ⊢
  rw [hn]
  rfl

/-- The adapter accepts the next `n` logins, starting with connection `c`, and refuses each time to tell the configuration. -/
def stubbornAdapter (c : Nat) : Nat → List Ev
  | 0 => []
  | n + 1 => loginEvs 1 c ++ rejectEvs 1 c 3 ++ stubbornAdapter (c + 1) n

theorem looping_run (n : Nat) : ∀ (s : Sys) (m : Nat), Looping s m → Looping (s.run sampleEnv (stubbornAdapter s.g.conns.length n)) (m + n) := by
  induction n with
  | zero => intro s m h; exact h
  | succ n ih =>
    intro s m h
    obtain ⟨h1, h2⟩ := looping_step h
    have := ih _ _ h1
    rw [h2] at this
    simp only [stubbornAdapter, sys_run_append] at this ⊢
    rwa [Nat.add_assoc, Nat.add_comm 1 n] at this

/-- The first refusal. -/
def loopStart : Sys := after sampleEnv 1 1 (bareConnectEvs ++ .call .getStatus :: rejectEvs 1 0 4)

theorem loopStart_looping : Looping loopStart 1 ∧ loopStart.g.conns.length = 1 := by
  have ht : (match loopStart.tasks with | [_, .opening r _] => decide (r = 1) | _ => false) = true := by decide +kernel
  refine ⟨⟨?_, by decide +kernel, by decide +kernel, by decide +kernel, by decide +kernel, by decide +kernel⟩, by decide +kernel⟩
  revert ht
  generalize loopStart.tasks = ts
  intro ht
  split at ht
  · rename_i d r k
    have : r = 1 := by simpa using ht
    exact ⟨d, k, by rw [this]⟩
  · cases ht

/-- **C39** does not hold, and there is no bound at all: for every number `n` there is an adapter - one that accepts every
login but always refuses to tell the configuration - on which a single call of `async_get_status` has opened more than `n`
connections and has still not ended. -/
theorem C39_refuted_unbounded (n : Nat) :
    openings (actsOf sampleEnv 1 1 bareConnectEvs .getStatus (rejectEvs 1 0 4 ++ stubbornAdapter 1 n)) = n + 1 ∧
    resultOf sampleEnv 1 1 bareConnectEvs .getStatus (rejectEvs 1 0 4 ++ stubbornAdapter 1 n) = none := by
  have e : after sampleEnv 1 1 (bareConnectEvs ++ .call .getStatus :: (rejectEvs 1 0 4 ++ stubbornAdapter 1 n)) =
      loopStart.run sampleEnv (stubbornAdapter 1 n) := by
    rw [loopStart, after, after, ← List.cons_append, ← List.append_assoc, sys_run_append]
  have hc : callTask sampleEnv 1 1 bareConnectEvs = 1 := by decide +kernel
  have h := looping_run n loopStart 1 loopStart_looping.1
  rw [loopStart_looping.2] at h
  simp only [actsOf, resultOf, e, hc]
  refine ⟨h.count.trans (Nat.add_comm _ _), ?_⟩
  obtain ⟨d, k, ht⟩ := h.tasks
  simp only [Sys.result, ht]
  rfl

end SL
