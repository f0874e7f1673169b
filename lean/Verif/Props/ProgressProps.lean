import Verif.Lemmas.Lands
import Verif.Spec.Progress
import Verif.Lemmas.Sample
import Verif.Props.Stream
import Verif.Props.SetterProps
import Verif.Lemmas.Calm
set_option linter.unusedVariables false
/-!
# C99: An answered call goes on
-/
namespace SL
open Spec
open Co (state modify makeRequest pause closeConn withLock tryExcept ofExcept)

/-! ## Where the answers lead -/

/-- An acknowledged command is over. -/
def ackLeads {α : Type} (a : α) (v : Option Bytes) (g : Gw) : Option (Except PyErr α × Gw) := if v = some [] then some (.ok a, g) else none

theorem ackLeads_some {α : Type} {a : α} {v : Option Bytes} {g : Gw} {r} (h : ackLeads a v g = some r) : v = some [] ∧ r = (.ok a, g) := by
  simp only [ackLeads] at h
  split at h
  · rename_i hv; cases h; exact ⟨hv, rfl⟩
  · cases h

/-- What a request with a decoded answer returns. -/
def queryLeads (E : Env) (D : Gw → Decoder) (v : Option Bytes) (g : Gw) : Option (Except PyErr (Option Bytes) × Gw) :=
  match v with
  | some (b :: bs) =>
    match decodeWith ((D g).prog E.pyFloat) (b :: bs) g.data with
    | (.ok _, d) => some (.ok (some (b :: bs)), g.setData d)
    | (.error e, d) => if e.isComm then none else some (.error e, g.setData d)
  | _ => some (.ok none, g)

/-- What a poll does with the answer. -/
def pollLeads {α : Type} (a : α) (E : Env) (D : Gw → Decoder) (key : Path) (v : Option Bytes) (g : Gw) : Option (Except PyErr α × Gw) :=
  match v with
  | some (b :: bs) =>
    match decodeWith ((D g).prog E.pyFloat) (b :: bs) g.data with
    | (.ok _, d) => some (.ok a, (g.setData d).putLast key (.bytes (b :: bs)))
    | (.error e, d) => if e.isComm then none else some (.error e, g.setData d)
  | _ => some (.ok a, g)

theorem lands_ack (code : Int) (payload : Except PyErr Bytes) (c : Nat) (r : Int) : (ackRequest code payload c r).Lands (fun _ _ k => Land (ackLeads ()) k) := by
  refine Co.lands_hush (Co.hush_ofExcept _) (fun data => ⟨fun _ => ?_, fun o => ?_⟩)
  · intro v g r hr
    obtain ⟨rfl, rfl⟩ := ackLeads_some hr
    rfl
  · cases o with
    | error e => trivial
    | ok v => exact Co.lands_ite trivial trivial

theorem lands_connectedAck (code : Int) (payload : Except PyErr Bytes) :
    (connectedRequest (ackRequest code payload)).Lands (fun _ _ k => Land (ackLeads ()) k) := by
  refine lands_connected (fun c r => lands_ack code payload c r) ?_ (fun c r => lands_ack code payload c r)
  intro code data k f _ hk
  refine hk.bindE (fun v g r hr => ⟨_, hr, ?_⟩)
  obtain ⟨rfl, rfl⟩ := ackLeads_some hr
  rfl

theorem lands_query (E : Env) (D : Gw → Decoder) (code : Int) (payload : Except PyErr Bytes) (c : Nat) (r : Int) :
    (queryRequest E D code payload c r).Lands (fun code' _ k => code' = code ∧ Land (queryLeads E D) k) := by
  refine Co.lands_hush (Co.hush_ofExcept _) (fun data => ⟨fun _ => ⟨rfl, ?_⟩, fun o => ?_⟩)
  · intro v g r hr
    match v with
    | none => exact hr
    | some [] => exact hr
    | some (b :: bs) =>
      simp only [queryLeads] at hr
      change ((decodeCo E (D g) (b :: bs) >>= fun _ => (.ret (some (b :: bs)) : Co (Option Bytes))) : Co (Option Bytes)).runs g = some r
      have hd : ∀ (x : Except PyErr Unit) (d : Val), decodeWith ((D g).prog E.pyFloat) (b :: bs) g.data = (x, d) →
          (decodeCo E (D g) (b :: bs)).runs g = some (x, g.setData d) := by
        intro x d h
        change (ofExcept (decodeWith ((D g).prog E.pyFloat) (b :: bs) g.data).1).runs (g.setData (decodeWith ((D g).prog E.pyFloat) (b :: bs) g.data).2) = _
        rw [h]
        cases x <;> rfl
      generalize decodeWith ((D g).prog E.pyFloat) (b :: bs) g.data = z at hd hr
      obtain ⟨x, d⟩ := z
      show (Co.bindE (decodeCo E (D g) (b :: bs)) _).runs g = some r
      rw [Co.runs_bindE _ _ (hd x d rfl)]
      cases x with
      | ok u => exact hr
      | error e =>
        simp only at hr
        split at hr
        · cases hr
        · exact hr
  · cases o with
    | error e => trivial
    | ok v =>
      change Co.Lands _ (match v with | some (b :: bs) => _ | _ => _)
      split
      · exact Co.lands_state (fun g => Co.lands_hush (hush_decode E _ _) (fun _ => trivial))
      · trivial

theorem lands_poll (E : Env) (D : Gw → Decoder) (key : Path) (code : Int) (payload : Except PyErr Bytes) :
    (poll key (queryRequest E D code payload)).Lands (fun code' _ k => code' = code ∧ Land (pollLeads () E D key) k) := by
  refine Co.lands_bindE (N := fun code' _ k => code' = code ∧ Land (queryLeads E D) k) ?_ (fun o => ?_) _
    (lands_connected (fun c r => lands_query E D code payload c r) ?_ (fun c r => lands_query E D code payload c r))
  · rintro code' data k ⟨hc, hk⟩
    refine ⟨hc, hk.bindE (fun v g r hr => ?_)⟩
    match v with
    | none => cases hr; exact ⟨(.ok none, g), rfl, rfl⟩
    | some [] => cases hr; exact ⟨(.ok none, g), rfl, rfl⟩
    | some (b :: bs) =>
      simp only [pollLeads] at hr
      simp only [queryLeads]
      generalize decodeWith ((D g).prog E.pyFloat) (b :: bs) g.data = z at hr ⊢
      obtain ⟨x, d⟩ := z
      cases x with
      | ok u => cases hr; exact ⟨(.ok (some (b :: bs)), g.setData d), rfl, rfl⟩
      | error e =>
        simp only at hr ⊢
        split at hr
        · cases hr
        · rename_i he
          cases hr
          exact ⟨(.error e, g.setData d), by rw [if_neg he], rfl⟩
  · cases o with
    | error e => trivial
    | ok v =>
      change Co.Lands _ (match v with | some b => _ | none => _)
      split
      · exact Co.hush_modify _ |>.lands
      · trivial
  · rintro code' data k f hf ⟨hc, hk⟩
    refine ⟨hc, hk.bindE (fun v g r hr => ⟨r, hr, ?_⟩)⟩
    match v with
    | none => cases hr; rfl
    | some [] => cases hr; rfl
    | some (b :: bs) =>
      simp only [queryLeads] at hr
      generalize decodeWith ((D g).prog E.pyFloat) (b :: bs) g.data = z at hr
      obtain ⟨x, d⟩ := z
      cases x with
      | ok u => cases hr; rfl
      | error e =>
        simp only at hr
        split at hr
        · cases hr
        · rename_i he
          cases hr
          show (f e).runs _ = _
          rw [hf e (by simpa using he)]
          rfl

/-- The setters. -/
theorem lands_setter (E : Env) (a : Call) (ha : a.isSetter = true) : (a.co E).Lands (fun _ _ k => Land (ackLeads Res.none) k) := by
  have fin : ∀ x : Co Unit, x.Lands (fun _ _ k => Land (ackLeads ()) k) → (x >>= fun _ => (.ret Res.none : Co Res)).Lands (fun _ _ k => Land (ackLeads Res.none) k) := by
    intro x hx
    refine Co.lands_bindE (N := fun _ _ k => Land (ackLeads ()) k) ?_ (fun o => by cases o <;> trivial) x hx
    intro code data k hk
    refine hk.bindE (fun v g r hr => ?_)
    obtain ⟨rfl, rfl⟩ := ackLeads_some hr
    exact ⟨(.ok (), g), rfl, rfl⟩
  have rq : ∀ b, (require b).Hushed := by
    intro b
    cases b with
    | error e => trivial
    | ok b => cases b <;> trivial
  have k := lands_connectedAck
  cases a with
  | setCircuit x y => exact fin _ (Co.lands_state (fun g => Co.lands_hush (rq _) (fun _ => Co.lands_hush (rq _) (fun _ => k _ _))))
  | setHeatTemp x y => exact fin _ (Co.lands_state (fun g => Co.lands_hush (rq _) (fun _ => Co.lands_hush (rq _) (fun _ => k _ _))))
  | setHeatMode x y => exact fin _ (Co.lands_state (fun g => Co.lands_hush (rq _) (fun _ => Co.lands_hush (rq _) (fun _ => k _ _))))
  | setColorLights x => exact fin _ (Co.lands_hush (rq _) (fun _ => k _ _))
  | setScg x y z w => exact fin _ (Co.lands_state (fun g => Co.lands_hush (Co.hush_ofExcept _) (fun _ => k _ _)))
  | setChem x y z w u v => exact fin _ (Co.lands_state (fun g => Co.lands_hush (Co.hush_ofExcept _) (fun _ => Co.lands_hush (Co.hush_ofExcept _) (fun _ => k _ _))))
  | setDateTime x y =>
    exact fin _ (Co.lands_ite trivial (Co.lands_state (fun g => Co.lands_hush (Co.hush_ofExcept _) (fun _ => Co.lands_hush (Co.hush_ofExcept _) (fun _ => k _ _)))))
  | _ => cases ha

/-! ## Answers arrive -/

theorem dataReceived_frame {p : Proto} {id code f : Nat} {payload : Bytes} (hid : id < 65536) (hc : code < 65536) (hl : payload.length < 2 ^ 32)
    (hcl : p.closing = false) (hb : p.buff = []) (hg : aget (id : Int) p.coll = some f) (hf : p.futs[f]? = some .pending) :
    (p.dataReceived (frame id code payload)).1.futs = p.futs.set f (.result ⟨id, code, payload⟩) := by
  obtain ⟨ms, fs, tail, h1, h2, h3, h4⟩ := completeMessages_spec p.buff (frame id code payload)
  have hm : makeMessage (id : Int) (code : Int) payload = .ok (frame id code payload) := by
    rw [C01_make_message, if_pos ⟨by omega, by omega, by omega, by omega, hl⟩]
    simp
  have hu := decomposition_unique h2 (Packed.cons (m := ⟨id, code, payload⟩) hm .nil) h4 (incomplete_nil) (tail' := [])
    (by rw [← h3, hb]; simp)
  obtain ⟨rfl, rfl⟩ := hu
  simp only [Proto.dataReceived, hcl, Bool.false_eq_true, if_false, h1, Proto.dispatchAll, Proto.dispatch, hg, hf]

theorem net_conn {g : Gw} {c : Nat} {x : Conn} (hx : g.conns[c]? = some x) (e : Event) : (g.net c e).conns[c]? = some { x with w := x.w.step e } := by
  simp only [Gw.net, List.getElem?_modify_eq, hx]
  rfl

/-- The expected answer reaches the request call. -/
theorem C99_answered (E : Env) {s : Sys} {t c r id code : Nat} {payload : Bytes} (hw : s.Waits t c r) (ha : s.g.Awaits c r id code) (hid : id < 65536)
    (hc : code + 1 < 65536) (hl : payload.length < 2 ^ 32) :
    (s.run E [.net c (.data (frame id (code + 1) payload)), .net c (.resume r)]).AnswerReady t (some payload) ∧
    (s.run E [.net c (.data (frame id (code + 1) payload)), .net c (.resume r)]).g.acts t = s.g.acts t ∧
    (s.run E [.net c (.data (frame id (code + 1) payload)), .net c (.resume r)]).g.data = s.g.data := by
  obtain ⟨k, hk⟩ := hw
  obtain ⟨x, q, f, hx, hq, hqc, hph, hf, hg, hcl, hb⟩ := ha
  have hfl : f < x.w.p.futs.length := (List.getElem?_eq_some_iff.1 hf).1
  have hrl : r < x.w.reqs.length := (List.getElem?_eq_some_iff.1 hq).1
  have h1 := net_conn hx (.data (frame id (code + 1) payload))
  have h2 := net_conn h1 (.resume r)
  refine ⟨⟨c, r, ⟨k, hk⟩, ?_⟩, rfl, rfl⟩
  change ((s.g.net c (.data (frame id (code + 1) payload))).net c (.resume r)).outcome c r = _
  simp only [Gw.outcome, h2, Option.bind_some]
  have hd := dataReceived_frame hid hc hl hcl hb hg hf
  have hr : (x.w.step (.data (frame id (code + 1) payload))).reqs[r]? = some q := hq
  have hp : (x.w.step (.data (frame id (code + 1) payload))).p.futs[f]? = some (.result ⟨id, ((code + 1 : Nat) : Int), payload⟩) := by
    change (x.w.p.dataReceived (frame id (code + 1) payload)).1.futs[f]? = _
    rw [hd, List.getElem?_set_self hfl]
  generalize x.w.step (.data (frame id (code + 1) payload)) = w at hr hp
  have hrl' : r < w.reqs.length := (List.getElem?_eq_some_iff.1 hr).1
  have hst : w.step (.resume r) = w.setReq r { q with phase := .done (.ret (some payload)) } := by
    simp only [World.step, hr, hph, hp]
    rw [if_neg (by simp), if_neg (by simp), if_neg (by simp)]
    simp only [Req.onResult, hqc, if_pos (show ((code + 1 : Nat) : Int) = (code : Int) + 1 by omega)]
  rw [hst]
  simp only [World.outcome, World.setReq, List.getElem?_set_self hrl']

/-! ## ... and the calls go on -/

section
variable {E : Env} {clientId maxRetries : Int} {es : List Ev} {a : Call} {es2 : List Ev}

theorem landed_call {N : Int → Bytes → (Except PyErr (Option Bytes) → Co Res) → Prop} (hN : (a.co E).Lands N) :
    ∃ y, (after E clientId maxRetries (es ++ .call a :: es2)).tasks[callTask E clientId maxRetries es]? = some y ∧
      y.LandsAt N ((after E clientId maxRetries (es ++ .call a :: es2)).g.acts (callTask E clientId maxRetries es)) := by
  rw [after_call_cons, after_call]
  refine lands_run E es2 (x := (settle (callTask E clientId maxRetries es) (a.co E) (after E clientId maxRetries es).g).1) ?_ ?_
  · simp only [Sys.step, Sys.spawn, callTask, List.getElem?_concat_length]
  · exact settle_lands _ _ _ hN

theorem after_resume (E : Env) (clientId maxRetries : Int) (es : List Ev) (a : Call) (es2 : List Ev) (ev : Ev) :
    after E clientId maxRetries (es ++ .call a :: (es2 ++ [ev])) = (after E clientId maxRetries (es ++ .call a :: es2)).step E ev := by
  rw [show es ++ Ev.call a :: (es2 ++ [ev]) = (es ++ Ev.call a :: es2) ++ [ev] by simp, after_snoc]

/-- What a task does with the answer that is ready. -/
theorem landed_resume {N : Int → Bytes → (Except PyErr (Option Bytes) → Co Res) → Prop} (hN : (a.co E).Lands N) {s : Sys} {t : Nat}
    (hs : s = after E clientId maxRetries (es ++ .call a :: es2)) (ht : t = callTask E clientId maxRetries es) {code : Int} (hl : s.LastAsked t code)
    (hc : code ∉ connectCodes) {v : Option Bytes} (hv : s.AnswerReady t v) :
    ∃ data k, N code data k ∧ s.step E (.resume t) = s.put t (settle t (k (.ok v)) (s.g.note t (.got (.ok v)))) := by
  obtain ⟨y, h1, h2⟩ := landed_call (es := es) (es2 := es2) (clientId := clientId) (maxRetries := maxRetries) hN
  rw [← hs, ← ht] at h1 h2
  obtain ⟨c, r, ⟨k, hk⟩, ho⟩ := hv
  rw [hk] at h1
  cases h1
  obtain ⟨⟨h0, code', data, e, hn⟩, -⟩ := h2
  obtain ⟨h', c', data', e'⟩ := hl
  rw [e'] at e
  have := List.append_inj_right' e rfl
  simp only [List.cons.injEq, Act.ask.injEq, and_true] at this
  obtain ⟨-, rfl, rfl⟩ := this
  exact ⟨data', k, hn hc, by simp only [Sys.step, hk, ho]⟩

/-- A setter that waits for its acknowledgement and gets it has returned. -/
theorem C99_setter (ha : a.isSetter = true) {code : Int} (hl : (after E clientId maxRetries (es ++ .call a :: es2)).LastAsked (callTask E clientId maxRetries es) code)
    (hc : code ∉ connectCodes) (hv : (after E clientId maxRetries (es ++ .call a :: es2)).AnswerReady (callTask E clientId maxRetries es) (some [])) :
    resultOf E clientId maxRetries es a (es2 ++ [.resume (callTask E clientId maxRetries es)]) = some (.ok .none) ∧
    (after E clientId maxRetries (es ++ .call a :: (es2 ++ [.resume (callTask E clientId maxRetries es)]))).g.data =
      (after E clientId maxRetries (es ++ .call a :: es2)).g.data := by
  obtain ⟨data, k, hk, e⟩ := landed_resume (lands_setter E a ha) rfl rfl hl hc hv
  obtain ⟨y, hy, -⟩ := landed_call (es := es) (es2 := es2) (clientId := clientId) (maxRetries := maxRetries) (lands_setter E a ha)
  have h := settle_runs (callTask E clientId maxRetries es) _ _ (hk (some []) ((after E clientId maxRetries (es ++ .call a :: es2)).g.note (callTask E clientId maxRetries es) (.got (.ok (some [])))) _ rfl)
  rw [resultOf, after_resume, e, h]
  exact ⟨by simp only [Sys.result, put_task hy], rfl⟩

/-- ... so does a poll that gets its answer: the answer is decoded, into the data, and kept; what the decoder raises is raised; an empty answer, or none,
changes nothing. -/
theorem C99_poll {key : Path} {code : Nat} {D : Rat → Decoder} (ha : PollOf a key code D)
    (hl : (after E clientId maxRetries (es ++ .call a :: es2)).LastAsked (callTask E clientId maxRetries es) code)
    {v : Option Bytes} (hv : (after E clientId maxRetries (es ++ .call a :: es2)).AnswerReady (callTask E clientId maxRetries es) v) :
    let s := after E clientId maxRetries (es ++ .call a :: es2)
    let s' := after E clientId maxRetries (es ++ .call a :: (es2 ++ [.resume (callTask E clientId maxRetries es)]))
    let res := resultOf E clientId maxRetries es a (es2 ++ [.resume (callTask E clientId maxRetries es)])
    ((v = none ∨ v = some []) → res = some (.ok .none) ∧ s'.g.data = s.g.data ∧ s'.g.last = s.g.last) ∧
    ∀ b, v = some b → b ≠ [] → ∀ d,
      (decodeWith ((D s.g.now).prog E.pyFloat) b s.g.data = (.ok (), d) → res = some (.ok .none) ∧ s'.g.data = d ∧ s'.g.last = (s.g.putLast key (.bytes b)).last) ∧
      ∀ e, e.isComm = false → decodeWith ((D s.g.now).prog E.pyFloat) b s.g.data = (.error e, d) → res = some (.error e) ∧ s'.g.data = d ∧ s'.g.last = s.g.last := by
  have hN : (a.co E).Lands (fun code' _ k => code' = (code : Int) ∧ Land (pollLeads Res.none E (fun g => D g.now) key) k) := by
    have fin : ∀ payload, (poll key (queryRequest E (fun g => D g.now) code payload) >>= fun _ => (.ret Res.none : Co Res)).Lands
        (fun code' _ k => code' = (code : Int) ∧ Land (pollLeads Res.none E (fun g => D g.now) key) k) := by
      intro payload
      refine Co.lands_bindE ?_ (fun o => by cases o <;> trivial) _ (lands_poll E (fun g => D g.now) key code payload)
      rintro code' data k ⟨hc, hk⟩
      refine ⟨hc, hk.bindE (fun v g r hr => ?_)⟩
      match v with
      | none => cases hr; exact ⟨(.ok (), g), rfl, rfl⟩
      | some [] => cases hr; exact ⟨(.ok (), g), rfl, rfl⟩
      | some (b :: bs) =>
        simp only [pollLeads] at hr ⊢
        generalize decodeWith ((D g.now).prog E.pyFloat) (b :: bs) g.data = z at hr ⊢
        obtain ⟨x, d⟩ := z
        cases x with
        | ok u => cases hr; exact ⟨_, rfl, rfl⟩
        | error e =>
          simp only at hr ⊢
          split at hr
          · cases hr
          · rename_i he
            cases hr
            exact ⟨(.error e, g.setData d), by rw [if_neg he], rfl⟩
    cases ha
    all_goals exact fin _
  have hc : (code : Int) ∉ connectCodes := by cases ha <;> decide
  obtain ⟨data, k, ⟨-, hk⟩, e⟩ := landed_resume hN rfl rfl hl hc hv
  obtain ⟨y, hy, -⟩ := landed_call (es := es) (es2 := es2) (clientId := clientId) (maxRetries := maxRetries) hN
  have h := fun r hr => settle_runs (callTask E clientId maxRetries es) _ _
    (hk v ((after E clientId maxRetries (es ++ .call a :: es2)).g.note (callTask E clientId maxRetries es) (.got (.ok v))) r hr)
  intro s s' res
  have hy' : s.tasks[callTask E clientId maxRetries es]? = some y := hy
  have hs' : s' = s.put (callTask E clientId maxRetries es) (settle (callTask E clientId maxRetries es) (k (.ok v))
      (s.g.note (callTask E clientId maxRetries es) (.got (.ok v)))) := by
    rw [← e]; exact after_resume ..
  have hres : res = s'.result (callTask E clientId maxRetries es) := rfl
  rw [hres, hs']
  refine ⟨fun hv => ?_, ?_⟩
  · have : pollLeads Res.none E (fun g => D g.now) key v (s.g.note (callTask E clientId maxRetries es) (.got (.ok v))) = some (.ok .none, s.g.note (callTask E clientId maxRetries es) (.got (.ok v))) := by
      rcases hv with rfl | rfl <;> rfl
    rw [h _ this]
    exact ⟨by simp only [Sys.result, put_task hy'], rfl, rfl⟩
  · rintro b rfl hb d
    cases b with
    | nil => exact absurd rfl hb
    | cons b bs =>
      refine ⟨fun hd => ?_, fun e he hd => ?_⟩
      · have : pollLeads Res.none E (fun g => D g.now) key (some (b :: bs)) (s.g.note (callTask E clientId maxRetries es) (.got (.ok (some (b :: bs))))) =
            some (.ok .none, ((s.g.note (callTask E clientId maxRetries es) (.got (.ok (some (b :: bs))))).setData d).putLast key (.bytes (b :: bs))) := by
          simp only [pollLeads]
          change (match decodeWith ((D s.g.now).prog E.pyFloat) (b :: bs) s.g.data with | (.ok _, d) => _ | (.error e, d) => _) = _
          rw [hd]
        rw [h _ this]
        exact ⟨by simp only [Sys.result, put_task hy'], rfl, rfl⟩
      · have : pollLeads Res.none E (fun g => D g.now) key (some (b :: bs)) (s.g.note (callTask E clientId maxRetries es) (.got (.ok (some (b :: bs))))) =
            some (.error e, (s.g.note (callTask E clientId maxRetries es) (.got (.ok (some (b :: bs))))).setData d) := by
          simp only [pollLeads]
          change (match decodeWith ((D s.g.now).prog E.pyFloat) (b :: bs) s.g.data with | (.ok _, d) => _ | (.error e, d) => _) = _
          rw [hd]
          simp [he]
        rw [h _ this]
        exact ⟨by simp only [Sys.result, put_task hy'], rfl, rfl⟩

/-- `async_send_message` returns the answer. -/
theorem C99_send {code : Int} {data : Bytes} (hc : code ∉ connectCodes)
    (hl : (after E clientId maxRetries (es ++ .call (.send code data) :: es2)).LastAsked (callTask E clientId maxRetries es) code) {v : Option Bytes}
    (hv : (after E clientId maxRetries (es ++ .call (.send code data) :: es2)).AnswerReady (callTask E clientId maxRetries es) v) :
    resultOf E clientId maxRetries es (.send code data) (es2 ++ [.resume (callTask E clientId maxRetries es)]) = some (.ok (.bytes v)) := by
  have base : ∀ c r, (makeRequest c code data r).Lands (fun _ _ k => Land (fun v g => some (.ok v, g)) k) := by
    intro c r
    exact ⟨fun _ v g r hr => by cases hr; rfl, fun o => by cases o <;> trivial⟩
  have hN : (Call.co E (.send code data)).Lands (fun _ _ k => Land (fun v g => some (.ok (.bytes v), g)) k) := by
    refine Co.lands_bindE (N := fun _ _ k => Land (fun v g => some (.ok v, g)) k) ?_ (fun o => by cases o <;> trivial) _
      (lands_connected base ?_ base)
    · intro code' data' k hk
      exact hk.bindE (fun v g r hr => ⟨_, rfl, hr⟩)
    · intro code' data' k f _ hk
      exact hk.bindE (fun v g r hr => ⟨_, rfl, hr⟩)
  obtain ⟨data', k, hk, e⟩ := landed_resume hN rfl rfl hl hc hv
  obtain ⟨y, hy, -⟩ := landed_call (es := es) (es2 := es2) (clientId := clientId) (maxRetries := maxRetries) hN
  have h := settle_runs (callTask E clientId maxRetries es) _ _ (hk v ((after E clientId maxRetries (es ++ .call (.send code data) :: es2)).g.note (callTask E clientId maxRetries es) (.got (.ok v))) _ rfl)
  rw [resultOf, after_resume, e, h]
  simp only [Sys.result, put_task hy]

end


/-! ## Requests on an open connection -/

theorem awaitSend_open (p : Proto) {code : Nat} {data : Bytes} (h2 : p.closing = false) (h3 : p.tclosing = false) (hn : p.nextId < 65536) (hc : code < 65536)
    (hd : data.length < 2 ^ 32) : ∃ p', p.awaitSend code data = (p', .ok p.futs.length) ∧ p'.futs = p.futs ++ [.pending] ∧
      p'.coll = aset (p.nextId : Int) p.futs.length p.coll ∧ p'.closing = false ∧ p'.buff = p.buff := by
  have hm : makeMessage (p.nextId : Int) (code : Int) data = .ok (frame p.nextId code data) := by
    rw [C01_make_message, if_pos ⟨by omega, by omega, by omega, by omega, hd⟩]
    simp
  have hc2 : ¬ (p.create code data).closing = true := by
    change ¬ p.closing = true
    rw [h2]
    simp
  have ht2 : ¬ (p.create code data).tclosing = true := by
    change ¬ p.tclosing = true
    rw [h3]
    simp
  refine ⟨_, by simp only [Proto.awaitSend, if_neg hc2, Proto.sendMessage, if_neg ht2, hm]; rfl, ?_⟩
  split
  · exact ⟨rfl, rfl, h2, rfl⟩
  · exact ⟨rfl, rfl, h2, rfl⟩

/-- A request made on an open connection waits for its answer. -/
theorem ask_awaits {g : Gw} (hw : Worlds g) (t : Nat) {c : Nat} {x : Conn} (hx : g.conns[c]? = some x) (ho : x.isOpen) (hb : x.w.p.buff = []) {code : Nat}
    {data : Bytes} {r : Int} (hr : 0 ≤ r) (hc : code < 65536) (hd : data.length < 2 ^ 32) :
    (g.ask t c code data r).2.Awaits c x.w.reqs.length (x.w.p.futs.length % 32767) code := by
  obtain ⟨es, hes⟩ := hw x (List.mem_of_getElem? hx)
  have hid : x.w.p.nextId = x.w.p.futs.length % 32767 := by
    have := (invIds es).nextId
    rw [← hes] at this
    exact this
  obtain ⟨p', e, h1, h2, h3, h4⟩ := awaitSend_open x.w.p (code := code) (data := data) ho.2.1 ho.2.2 (by omega) hc hd
  refine ⟨_, { code := (code : Int), data := data, maxRetries := r, mine := [x.w.p.futs.length], phase := .waiting x.w.p.futs.length false false },
    x.w.p.futs.length, (conns_ask g t c code data r hx).1, ?_⟩
  have hn : ¬ r < ((0 : Nat) : Int) := by omega
  have hp : ¬ p'.futs[x.w.p.futs.length]? = some .cancelled := by rw [h1]; simp
  have hlen : x.w.reqs.length < (x.w.reqs ++ [({ code := (code : Int), data := data, maxRetries := r } : Req)]).length := by simp
  have : (x.w.step (.call code data r)).step (.run x.w.reqs.length) =
      ({ x.w with reqs := x.w.reqs ++ [{ code := (code : Int), data := data, maxRetries := r }], p := p' } : World).setReq
        x.w.reqs.length { code := (code : Int), data := data, maxRetries := r, mine := [x.w.p.futs.length], phase := .waiting x.w.p.futs.length false false } := by
    simp only [World.step, List.getElem?_concat_length, if_true, World.startAttempt, if_neg hn, ho.1, Bool.not_true, Bool.false_eq_true, if_false,
      e, if_neg hp, List.nil_append]
  rw [this]
  refine ⟨?_, rfl, rfl, ?_, ?_, h3, h4.trans hb⟩
  · simp only [World.setReq]
    rw [List.getElem?_set_self hlen]
  · change p'.futs[_]? = _
    rw [h1]; simp
  · change aget _ p'.coll = _
    rw [h2, ← hid, aget_aset_same]

section
variable {E : Env} {clientId maxRetries : Int} {es : List Ev} {a : Call} {es2 : List Ev}

/-- A setter that waits for the acknowledgement of its message returns when that arrives. -/
theorem C99_acknowledged (ha : a.isSetter = true) {c r id code : Nat} (hid : id < 65536) (hc : code + 1 < 65536)
    (hw : (after E clientId maxRetries (es ++ .call a :: es2)).Waits (callTask E clientId maxRetries es) c r)
    (hg : (after E clientId maxRetries (es ++ .call a :: es2)).g.Awaits c r id code)
    (hl : (after E clientId maxRetries (es ++ .call a :: es2)).LastAsked (callTask E clientId maxRetries es) code) (hn : (code : Int) ∉ connectCodes) :
    resultOf E clientId maxRetries es a (es2 ++ answerEvs (callTask E clientId maxRetries es) c r id (code + 1) []) = some (.ok .none) := by
  have h := C99_answered E hw hg hid hc (payload := []) (by simp)
  have e : (after E clientId maxRetries (es ++ .call a :: es2)).run E [.net c (.data (frame id (code + 1) [])), .net c (.resume r)] =
      after E clientId maxRetries (es ++ .call a :: (es2 ++ [.net c (.data (frame id (code + 1) [])), .net c (.resume r)])) := by
    simp only [after, ← sys_run_append]
    simp
  rw [e] at h
  obtain ⟨h1, h2, -⟩ := h
  have := (C99_setter ha (code := (code : Int)) (by obtain ⟨l, c', d, hl⟩ := hl; exact ⟨l, c', d, h2.trans hl⟩) hn h1).1
  rw [← this]
  simp [answerEvs]

/-- A payload of moderate length, or an error that is not a communication error. -/
def Packs (x : Except PyErr Bytes) : Prop := (∀ e, x = .error e → e.isComm = false) ∧ ∀ b, x = .ok b → b.length < 4096

theorem packObj_packs (v : Val) : (∀ e, packObj v = .error e → e.isComm = false) ∧ ∀ b, packObj v = .ok b → b.length = 4 := by
  cases v with
  | int n =>
    simp only [packObj, packU]
    split
    · exact ⟨fun e he => (nomatch he), fun b hb => (by cases hb; exact length_leBytes 4 _)⟩
    · exact ⟨fun e he => by cases he; rfl, by simp⟩
  | _ => exact ⟨fun e he => by cases he; rfl, by simp [packObj]⟩

theorem packObjs_packs : ∀ l : List Val, (∀ e, packObjs l = .error e → e.isComm = false) ∧ ∀ b, packObjs l = .ok b → b.length = 4 * l.length
  | [] => ⟨fun e he => (by cases he), fun b hb => (by cases hb; rfl)⟩
  | v :: l => by
    have h1 := packObj_packs v
    have h2 := packObjs_packs l
    simp only [packObjs]
    cases hv : packObj v with
    | error e => exact ⟨fun e' he => by cases he; exact h1.1 e hv, fun b hb => by cases hb⟩
    | ok b1 =>
      cases hl : packObjs l with
      | error e => exact ⟨fun e' he => by cases he; exact h2.1 e hl, fun b hb => by cases hb⟩
      | ok b2 =>
        refine ⟨fun e' he => (by cases he), fun b hb => ?_⟩
        cases hb
        have := h1.2 b1 hv
        have := h2.2 b2 hl
        simp only [List.length_append, List.length_cons]
        omega

theorem packs_objs {l : List Val} (h : l.length ≤ 8) : Packs (packObjs l) :=
  ⟨(packObjs_packs l).1, fun b hb => by have := (packObjs_packs l).2 b hb; omega⟩

theorem packU2_err {n : Int} {e : PyErr} (h : packU 2 n = .error e) : e.isComm = false := by
  simp only [packU] at h
  split at h
  · cases h
  · cases h; rfl

theorem packU2_len {n : Int} {b : Bytes} (h : packU 2 n = .ok b) : b.length = 2 := by
  simp only [packU] at h
  split at h
  · cases h; exact length_leBytes 2 _
  · cases h

theorem noComm_bind {α β : Type} {x : Except PyErr α} {f : α → Except PyErr β} {e : PyErr} (hx : ∀ e, x = .error e → e.isComm = false)
    (hf : ∀ a e, f a = .error e → e.isComm = false) (h : (x >>= f) = .error e) : e.isComm = false := by
  cases x with
  | error e' => cases h; exact hx _ rfl
  | ok a => exact hf a e h

theorem noComm_pack8H {a b c d e f g h : Nat} {er : PyErr} (hh : pack8H a b c d e f g h = .error er) : er.isComm = false := by
  unfold pack8H at hh
  refine noComm_bind (fun _ => packU2_err) (fun _ _ => noComm_bind (fun _ => packU2_err) (fun _ _ => noComm_bind (fun _ => packU2_err) (fun _ _ =>
    noComm_bind (fun _ => packU2_err) (fun _ _ => noComm_bind (fun _ => packU2_err) (fun _ _ => noComm_bind (fun _ => packU2_err) (fun _ _ =>
    noComm_bind (fun _ => packU2_err) (fun _ _ => noComm_bind (fun _ => packU2_err) (fun _ _ h => (by cases h))))))))) hh

theorem packs_dateTime (t : DateTime) (v : Val) : Packs (dateTimePayload t v) := by
  have h2 := packObjs_packs [v]
  simp only [dateTimePayload]
  cases h1 : encodeMessageTime t with
  | error e =>
    refine ⟨fun e' he => ?_, fun b hb => (by cases hb)⟩
    cases he
    exact noComm_pack8H h1
  | ok b1 =>
    cases hl : packObjs [v] with
    | error e => exact ⟨fun e' he => by cases he; exact h2.1 e hl, fun b hb => by cases hb⟩
    | ok b2 =>
      refine ⟨fun e' he => (by cases he), fun b hb => ?_⟩
      cases hb
      have h3 : b1.length = 16 := by
        rw [time_block h1]
        simp [timeBlock, u16]
      have := h2.2 b2 hl
      simp only [List.length_append, List.length_cons, List.length_nil] at this ⊢
      omega

theorem setter_packs {f : Val → Except PyErr (Int × Except PyErr Bytes)} (h : setterPlan E a = some f) {d : Val} {p : Int × Except PyErr Bytes}
    (hp : f d = .ok p) : (∃ n : Nat, p.1 = n ∧ n + 1 < 65536) ∧ Packs p.2 := by
  have fin : ∀ {c : Nat} {q : Except PyErr Bytes}, c + 1 < 65536 → Packs q → (Except.ok ((c : Int), q) : Except PyErr _) = .ok p →
      (∃ n : Nat, p.1 = n ∧ n + 1 < 65536) ∧ Packs p.2 := by
    intro c q hc hq he
    cases he
    exact ⟨⟨c, rfl, hc⟩, hq⟩
  cases a with
  | setCircuit circuit st =>
    cases h
    obtain ⟨_, _, hp⟩ := bind_ok hp
    obtain ⟨_, _, hp⟩ := bind_ok hp
    exact fin (c := 12530) (by decide) (packs_objs (by simp)) hp
  | setHeatTemp body temp =>
    cases h
    obtain ⟨_, _, hp⟩ := bind_ok hp
    obtain ⟨_, _, hp⟩ := bind_ok hp
    exact fin (c := 12528) (by decide) (packs_objs (by simp)) hp
  | setHeatMode body mode =>
    cases h
    obtain ⟨_, _, hp⟩ := bind_ok hp
    obtain ⟨_, _, hp⟩ := bind_ok hp
    exact fin (c := 12538) (by decide) (packs_objs (by simp)) hp
  | setColorLights cmd =>
    cases h
    obtain ⟨_, _, hp⟩ := bind_ok hp
    exact fin (c := 12556) (by decide) (packs_objs (by simp)) hp
  | setScg a b c d =>
    cases h
    obtain ⟨_, _, hp⟩ := bind_ok hp
    exact fin (c := 12576) (by decide) (packs_objs (by simp)) hp
  | setChem a b c d e f =>
    cases h
    obtain ⟨_, _, hp⟩ := bind_ok hp
    obtain ⟨_, _, hp⟩ := bind_ok hp
    exact fin (c := 12594) (by decide) (packs_objs (by simp)) hp
  | setDateTime date dst =>
    cases h
    simp only at hp
    split at hp
    · cases hp
    · obtain ⟨_, _, hp⟩ := bind_ok hp
      obtain ⟨_, _, hp⟩ := bind_ok hp
      exact fin (c := 8112) (by decide) (packs_dateTime _ _) hp
  | _ => cases h

/-- As `settle_connected`, and what becomes of errors. -/
theorem settle_connectedE {g : Gw} {c : Nat} (hp : g.protocol = some c) (hc : g.isConnected = true) {α : Type} (method : Nat → Int → Co α)
    (k : Except PyErr α → Co Res) (t : Nat) : ∃ h : Except PyErr α → Co α, (∀ e, e.isComm = false → h (.error e) = .throw e) ∧
    settle t ((connectedRequest method).bindE k) g = settle t (((method c g.maxRetries).bindE h).bindE k) g := by
  refine ⟨fun | .ok a => .ret a | .error e => if e.isComm then do asyncDisconnect true; pause; attemptRequest g.maxRetries method else .throw e, ?_, ?_⟩
  · intro e he
    simp [he]
  · simp only [connectedRequest, attemptRequest, asyncConnect]
    change settle t (Co.bindE (Co.tryExcept (Co.bindE (if g.isConnected then _ else _) _) _) _) g = _
    rw [if_pos hc]
    change settle t (Co.bindE (Co.tryExcept (match g.protocol with | some c => method c g.maxRetries | none => _) _) _) g = _
    rw [hp]
    simp only [Co.tryExcept]
    rfl

theorem settle_setterCo {g : Gw} (t : Nat) {c : Nat} (hp : g.protocol = some c) (hc : g.isConnected = true) (code : Int) (payload : Except PyErr Bytes) :
    ∃ (h : Except PyErr Unit → Co Unit) (k : Except PyErr Unit → Co Res), (∀ e, e.isComm = false → h (.error e) = .throw e) ∧ (∀ e, k (.error e) = .throw e) ∧
      settle t (setterCo (.ok (code, payload))) g = settle t (((ackRequest code payload c g.maxRetries).bindE h).bindE k) g := by
  obtain ⟨h, he, hs⟩ := settle_connectedE hp hc (ackRequest code payload) _ t
  exact ⟨h, _, he, fun _ => rfl, hs⟩

/-- A setter that sends its message at once waits for its acknowledgement at once. -/
theorem prompt_setter (h1 : 1 ≤ maxRetries) (h5 : maxRetries ≤ 5) {f : Val → Except PyErr (Int × Except PyErr Bytes)} (hf : setterPlan E a = some f)
    {code : Nat} {payload : Bytes} (hp : f (after E clientId maxRetries es).g.data = .ok ((code : Int), .ok payload)) (hc : code + 1 < 65536)
    (hl : payload.length < 2 ^ 32) {c : Nat} {x : Conn} (hpr : (after E clientId maxRetries es).g.protocol = some c)
    (hx : (after E clientId maxRetries es).g.conns[c]? = some x) (ho : x.isOpen) (hb : x.w.p.buff = []) :
    resultOf E clientId maxRetries es a (answerEvs (callTask E clientId maxRetries es) c x.w.reqs.length (x.w.p.futs.length % 32767) (code + 1) []) =
      some (.ok .none) := by
  have hconn : (after E clientId maxRetries es).g.isConnected = true := by
    simp only [Gw.isConnected, hpr, Gw.connected, hx]
    exact ho.1
  have hr := (reach_retries E clientId maxRetries h1 h5 es).1
  have key : ∃ K, settle (callTask E clientId maxRetries es) (setterCo (.ok ((code : Int), .ok payload))) (after E clientId maxRetries es).g =
      (.request c x.w.reqs.length K,
        ((after E clientId maxRetries es).g.ask (callTask E clientId maxRetries es) c code payload (after E clientId maxRetries es).g.maxRetries).2) := by
    obtain ⟨h, k, -, -, hs⟩ := settle_setterCo (callTask E clientId maxRetries es) hpr hconn code (.ok payload)
    obtain ⟨K, hK⟩ := ackRequest_ok code payload c (after E clientId maxRetries es).g.maxRetries
    rw [hK] at hs
    exact ⟨_, hs.trans (settle_request (reach_worlds E clientId maxRetries es) (callTask E clientId maxRetries es) hx ho (code := code) (data := payload)
      (r := (after E clientId maxRetries es).g.maxRetries) (by omega) (by omega) hl _).1⟩
  obtain ⟨K, key⟩ := key
  have haw := ask_awaits (reach_worlds E clientId maxRetries es) (callTask E clientId maxRetries es) hx ho hb (code := code) (data := payload)
    (r := (after E clientId maxRetries es).g.maxRetries) (by omega) (by omega) hl
  have hst : after E clientId maxRetries (es ++ [.call a]) =
      { g := ((after E clientId maxRetries es).g.ask (callTask E clientId maxRetries es) c code payload (after E clientId maxRetries es).g.maxRetries).2,
        tasks := (after E clientId maxRetries es).tasks ++ [.request c x.w.reqs.length K] } := by
    rw [after_call]
    simp only [Sys.step, Sys.spawn]
    rw [settle_look, setter_look E hf, ← settle_look, hp]
    rw [callTask] at key
    rw [key]
    rfl
  have ha : a.isSetter = true := by cases a <;> first | rfl | cases hf
  refine C99_acknowledged (es2 := []) ha (by omega) hc ?_ ?_ ?_ ?_
  · rw [hst]
    exact ⟨K, by simp [callTask]⟩
  · rw [hst]; exact haw
  · rw [hst]
    exact ⟨_, c, payload, acts_ask_same ..⟩
  · exact setter_code E hf hp

/-- On an open connection, between messages: a setter that sends exactly this message returns as soon as the acknowledgement arrives. -/
theorem C99_prompt (h1 : 1 ≤ maxRetries) (h5 : maxRetries ≤ 5) (ha : a.isSetter = true) {code : Nat} {payload : Bytes} (hc : code < 65536)
    (hs : SendsExactly E clientId maxRetries es a code payload) {c : Nat} {x : Conn} (hpr : (after E clientId maxRetries es).g.protocol = some c)
    (hx : (after E clientId maxRetries es).g.conns[c]? = some x) (ho : x.isOpen) (hb : x.w.p.buff = []) :
    resultOf E clientId maxRetries es a (answerEvs (callTask E clientId maxRetries es) c x.w.reqs.length (x.w.p.futs.length % 32767) (code + 1) []) =
      some (.ok .none) := by
  obtain ⟨x', hx', hw⟩ := hs.atOnce h1 h5 c x hpr hx ho
  obtain ⟨f, hf⟩ : ∃ f, setterPlan E a = some f := by cases a <;> first | exact ⟨_, rfl⟩ | cases ha
  have same : (after E clientId maxRetries (es ++ [.call a])).g.conns[c]? ≠ some x := by
    rw [hx']
    intro e
    cases e
    have := congrArg List.length hw
    simp at this
  cases hp : f (after E clientId maxRetries es).g.data with
  | error e =>
    exfalso
    have := setter_refuses (clientId := clientId) (maxRetries := maxRetries) hf hp
    rw [Refuses] at this
    rw [this] at same
    exact same hx
  | ok p =>
    obtain ⟨code', q⟩ := p
    obtain ⟨⟨n, hn, hn2⟩, hq⟩ := setter_packs hf hp
    simp only at hn
    subst hn
    cases q with
    | error e =>
      exfalso
      have hconn : (after E clientId maxRetries es).g.isConnected = true := by
        simp only [Gw.isConnected, hpr, Gw.connected, hx]
        exact ho.1
      obtain ⟨h, k, he, hk, hs⟩ := settle_setterCo (callTask E clientId maxRetries es) hpr hconn n (.error e)
      have hs2 : settle (callTask E clientId maxRetries es) (setterCo (.ok ((n : Int), .error e))) (after E clientId maxRetries es).g =
          (.done (.error e), (after E clientId maxRetries es).g) := by
        refine hs.trans ?_
        change settle _ ((h (.error e)).bindE _) _ = _
        rw [he e (hq.1 e rfl)]
        change settle _ (k (.error e)) _ = _
        rw [hk]
        rfl
      apply same
      rw [after_call]
      simp only [Sys.step, Sys.spawn]
      rw [settle_look, setter_look E hf, ← settle_look, hp]
      rw [callTask] at hs2
      rw [hs2]
      exact hx
    | ok pl =>
      have hpl := hq.2 pl rfl
      obtain ⟨x'', hx'', hw'⟩ := (setter_sends hf hp (by omega) (by omega)).atOnce h1 h5 c x hpr hx ho
      rw [hx'] at hx''
      cases hx''
      rw [hw] at hw'
      have hfr := List.append_cancel_left hw'
      simp only [List.cons.injEq, Prod.mk.injEq, true_and, and_true] at hfr
      have hcode : code = n := by
        have h3 := congrArg (fun l => (l.drop 2).take 2) hfr
        have e1 : ∀ i c (d : Bytes), ((frame i c d).drop 2).take 2 = u16 c := by intro i c d; simp [frame, u16]
        simp only [e1] at h3
        rw [← leVal_u16 hc, h3, leVal_u16 (by omega)]
      subst hcode
      exact prompt_setter h1 h5 hf hp hn2 (by omega) hpr hx ho hb

theorem bindE_bindE {α β γ : Type} {k : Except PyErr α → Co β} {j : Except PyErr β → Co γ} : ∀ x : Co α, (x.bindE k).bindE j = x.bindE (fun o => (k o).bindE j)
  | .ret a => rfl
  | .throw e => rfl
  | .get f => by
    change Co.get _ = Co.get _
    exact congrArg Co.get (funext (fun g => bindE_bindE (f g)))
  | .upd u f => by
    change Co.upd _ _ = Co.upd _ _
    exact congrArg (Co.upd u) (bindE_bindE f)
  | .request _ _ _ _ f => by
    change Co.request _ _ _ _ _ = Co.request _ _ _ _ _
    exact congrArg (Co.request _ _ _ _) (funext (fun o => bindE_bindE (f o)))
  | .openConn _ f => by
    change Co.openConn _ _ = Co.openConn _ _
    exact congrArg (Co.openConn _) (funext (fun o => bindE_bindE (f o)))
  | .sleep f => by
    change Co.sleep _ = Co.sleep _
    exact congrArg Co.sleep (funext (fun o => bindE_bindE (f o)))
  | .close _ _ f => by
    change Co.close _ _ _ = Co.close _ _ _
    exact congrArg (Co.close _ _) (funext (fun o => bindE_bindE (f o)))
  | .acquire f => by
    change Co.acquire _ = Co.acquire _
    exact congrArg Co.acquire (funext (fun o => bindE_bindE (f o)))

/-- On an open connection, between messages, a poll waits for its answer at once. -/
theorem prompt_poll (h1 : 1 ≤ maxRetries) (h5 : maxRetries ≤ 5) {key : Path} {code : Nat} {D : Rat → Decoder} (ha : PollOf a key code D) {c : Nat} {x : Conn}
    (hpr : (after E clientId maxRetries es).g.protocol = some c) (hx : (after E clientId maxRetries es).g.conns[c]? = some x) (ho : x.isOpen)
    (hb : x.w.p.buff = []) :
    (after E clientId maxRetries (es ++ [.call a])).Waits (callTask E clientId maxRetries es) c x.w.reqs.length ∧
    (after E clientId maxRetries (es ++ [.call a])).g.Awaits c x.w.reqs.length (x.w.p.futs.length % 32767) code ∧
    (after E clientId maxRetries (es ++ [.call a])).LastAsked (callTask E clientId maxRetries es) code ∧
    (after E clientId maxRetries (es ++ [.call a])).g.data = (after E clientId maxRetries es).g.data ∧
    (after E clientId maxRetries (es ++ [.call a])).g.now = (after E clientId maxRetries es).g.now := by
  have hconn : (after E clientId maxRetries es).g.isConnected = true := by
    simp only [Gw.isConnected, hpr, Gw.connected, hx]
    exact ho.1
  have hr := (reach_retries E clientId maxRetries h1 h5 es).1
  have key : ∃ payload : Bytes, payload.length < 2 ^ 32 ∧ code < 65536 ∧ ∃ K, settle (callTask E clientId maxRetries es) (a.co E) (after E clientId maxRetries es).g =
      (.request c x.w.reqs.length K,
        ((after E clientId maxRetries es).g.ask (callTask E clientId maxRetries es) c code payload (after E clientId maxRetries es).g.maxRetries).2) := by
    have gen : ∀ (payload : Bytes) (k1 : Except PyErr (Option Bytes) → Co Unit) (k2 : Except PyErr Unit → Co Res), payload.length < 2 ^ 32 → code < 65536 →
        ∃ K, settle (callTask E clientId maxRetries es) (((connectedRequest (queryRequest E (fun g => D g.now) code (.ok payload))).bindE k1).bindE k2)
          (after E clientId maxRetries es).g = (.request c x.w.reqs.length K,
          ((after E clientId maxRetries es).g.ask (callTask E clientId maxRetries es) c code payload (after E clientId maxRetries es).g.maxRetries).2) := by
      intro payload k1 k2 hl hc
      rw [bindE_bindE]
      obtain ⟨h, hs⟩ := settle_connected hpr hconn (queryRequest E (fun g => D g.now) code (.ok payload)) (fun o => (k1 o).bindE k2) (callTask E clientId maxRetries es)
      exact ⟨_, hs.trans (settle_request (reach_worlds E clientId maxRetries es) (callTask E clientId maxRetries es) hx ho (code := code) (data := payload)
        (r := (after E clientId maxRetries es).g.maxRetries) (by omega) hc hl _).1⟩
    cases ha
    · exact ⟨leBytes 4 0, by simp [length_leBytes], by decide, gen _ _ _ (by simp [length_leBytes]) (by decide)⟩
    · exact ⟨leBytes 4 0, by simp [length_leBytes], by decide, gen _ _ _ (by simp [length_leBytes]) (by decide)⟩
    · exact ⟨leBytes 4 0, by simp [length_leBytes], by decide, gen _ _ _ (by simp [length_leBytes]) (by decide)⟩
    · exact ⟨[], by simp, by decide, gen _ _ _ (by simp) (by decide)⟩
  obtain ⟨payload, hl, hc, K, key⟩ := key
  have hst : after E clientId maxRetries (es ++ [.call a]) =
      { g := ((after E clientId maxRetries es).g.ask (callTask E clientId maxRetries es) c code payload (after E clientId maxRetries es).g.maxRetries).2,
        tasks := (after E clientId maxRetries es).tasks ++ [.request c x.w.reqs.length K] } := by
    rw [after_call]
    simp only [Sys.step, Sys.spawn]
    rw [callTask] at key
    rw [key]
    rfl
  rw [hst]
  refine ⟨⟨K, by simp [callTask]⟩, ?_, ⟨_, c, payload, acts_ask_same ..⟩, rfl, rfl⟩
  exact ask_awaits (reach_worlds E clientId maxRetries es) (callTask E clientId maxRetries es) hx ho hb (by omega) hc hl

/-- On an open connection, between messages: a poll returns as soon as an answer arrives that can be decoded, and then the data are what the decoder made of
them. -/
theorem C99_polled (h1 : 1 ≤ maxRetries) (h5 : maxRetries ≤ 5) {key : Path} {code : Nat} {D : Rat → Decoder} (ha : PollOf a key code D) {c : Nat} {x : Conn}
    (hpr : (after E clientId maxRetries es).g.protocol = some c) (hx : (after E clientId maxRetries es).g.conns[c]? = some x) (ho : x.isOpen)
    (hb : x.w.p.buff = []) {b : Bytes} (hne : b ≠ []) (hl : b.length < 2 ^ 32) {d : Val}
    (hd : decodeWith ((D (after E clientId maxRetries es).g.now).prog E.pyFloat) b (after E clientId maxRetries es).g.data = (.ok (), d)) :
    resultOf E clientId maxRetries es a (answerEvs (callTask E clientId maxRetries es) c x.w.reqs.length (x.w.p.futs.length % 32767) (code + 1) b) =
      some (.ok .none) ∧
    (after E clientId maxRetries (es ++ .call a :: answerEvs (callTask E clientId maxRetries es) c x.w.reqs.length (x.w.p.futs.length % 32767) (code + 1) b)).g.data = d := by
  obtain ⟨p1, p2, p3, p4, p5⟩ := prompt_poll h1 h5 ha hpr hx ho hb
  have hc : code + 1 < 65536 := by cases ha <;> decide
  generalize hid : x.w.p.futs.length % 32767 = id at *
  have hid' : id < 65536 := by omega
  have h := C99_answered E p1 p2 hid' hc hl
  have e : (after E clientId maxRetries (es ++ [.call a])).run E [.net c (.data (frame id (code + 1) b)), .net c (.resume x.w.reqs.length)] =
      after E clientId maxRetries (es ++ .call a :: [.net c (.data (frame id (code + 1) b)), .net c (.resume x.w.reqs.length)]) := by
    simp only [after, ← sys_run_append]
    simp
  have hnow : ((after E clientId maxRetries (es ++ [.call a])).run E [.net c (.data (frame id (code + 1) b)), .net c (.resume x.w.reqs.length)]).g.now =
      (after E clientId maxRetries (es ++ [.call a])).g.now := rfl
  rw [e] at h hnow
  obtain ⟨q1, q2, q3⟩ := h
  have := ((C99_poll ha (by obtain ⟨l, c', d, hl⟩ := p3; exact ⟨l, c', d, q2.trans hl⟩) q1).2 b rfl hne d).1
    (by rw [hnow, q3, p4, p5]; exact hd)
  exact ⟨this.1, this.2.1⟩

end

/-- A connected gateway: the hypotheses are met, so pressing a circuit's button and polling the chlorinator return as soon as they are answered. -/
theorem C99_witness : ∃ x, (after sampleEnv 0 5 connectEvs).g.protocol = some 0 ∧ (after sampleEnv 0 5 connectEvs).g.conns[0]? = some x ∧ x.isOpen ∧ x.w.p.buff = [] ∧
    SendsExactly sampleEnv 0 5 connectEvs (.setCircuit (.int 505) (.int 1)) 12530 (words [0, 505, 1]) ∧
    resultOf sampleEnv 0 5 connectEvs (.setCircuit (.int 505) (.int 1)) (answerEvs 1 0 4 4 12531 []) = some (.ok .none) ∧
    resultOf sampleEnv 0 5 connectEvs .getScg (answerEvs 1 0 4 4 12573 sampleScg.enc) = some (.ok .none) := by
  have h1 : (after sampleEnv 0 5 connectEvs).g.protocol = some 0 := by decide +kernel
  have h2 : ((after sampleEnv 0 5 connectEvs).g.conns[0]?).map (fun x => (x.w.p.connected, x.w.p.closing, x.w.p.tclosing, x.w.p.buff.length, x.w.reqs.length,
      x.w.p.futs.length)) = some (true, false, false, 0, 4, 4) := by decide +kernel
  have h3 : ((after sampleEnv 0 5 connectEvs).g.data.look [.s "circuit", .i 505]).isSome = true := by decide +kernel
  have h4 : (decodeWith ((Decoder.scg).prog sampleEnv.pyFloat) sampleScg.enc (after sampleEnv 0 5 connectEvs).g.data).1.toOption = some () := by decide +kernel
  have h5 : sampleScg.enc ≠ [] := by decide +kernel
  have h6 : sampleScg.enc.length < 2 ^ 32 := by decide +kernel
  have h7 : (after sampleEnv 0 5 connectEvs).tasks.length = 1 := by decide +kernel
  obtain ⟨x, hx, hy⟩ := Option.map_eq_some_iff.1 h2
  simp only [Prod.mk.injEq] at hy
  obtain ⟨y1, y2, y3, y4, y5, y6⟩ := hy
  have y4 := List.eq_nil_of_length_eq_zero y4
  have hs := C29_sends (E := sampleEnv) (clientId := 0) (maxRetries := 5) (es := connectEvs) 505 1 h3 (.inr rfl) (by decide)
  have e1 : callTask sampleEnv 0 5 connectEvs = 1 := h7
  refine ⟨x, h1, hx, ⟨y1, y2, y3⟩, y4, hs, ?_, ?_⟩
  · have := C99_prompt (by decide) (by decide) rfl (by decide) hs h1 hx ⟨y1, y2, y3⟩ y4
    rw [y5, y6, e1] at this
    exact this
  · have := (C99_polled (d := (decodeWith ((Decoder.scg).prog sampleEnv.pyFloat) sampleScg.enc (after sampleEnv 0 5 connectEvs).g.data).2)
      (by decide) (by decide) .scg h1 hx ⟨y1, y2, y3⟩ y4 h5 h6 (by
        generalize decodeWith _ _ _ = z at h4
        obtain ⟨z1, z2⟩ := z
        cases z1 with
        | ok u => rfl
        | error e => cases h4)).1
    rw [y5, y6, e1] at this
    exact this

end SL
