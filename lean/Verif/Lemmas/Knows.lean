import Verif.Lemmas.Frail
import Verif.Lemmas.Provenance
import Verif.Props.ProvProps
/-!
# What a task knows

A coroutine that reads the data may learn something of them (`K`), and act on it later.  `K` is something that stays true once it
is: so what was learnt is still true when it is acted upon, whatever happens in between.
-/
set_option linter.unusedVariables false
namespace SL

/-- If `b` is known, or what is learnt on the way: the requests in `ask` are made only when `K` is known, and the coroutine ends with a result in
`fin` only then. -/
def Co.Knows {α : Type} (K : Val → Prop) (ask : Int → Prop) (fin : Except PyErr α → Prop) : Prop → Co α → Prop
  | b, .ret a => fin (.ok a) → b
  | b, .throw e => fin (.error e) → b
  | b, .get k => ∀ g : Gw, (k g).Knows K ask fin (b ∨ K g.data)
  | b, .upd _ k => k.Knows K ask fin b
  | b, .request _ code _ _ k => (ask code → b) ∧ ∀ o, (k o).Knows K ask fin b
  | b, .openConn _ k => ∀ o, (k o).Knows K ask fin b
  | b, .sleep k => ∀ o, (k o).Knows K ask fin b
  | b, .close _ _ k => ∀ o, (k o).Knows K ask fin b
  | b, .acquire k => ∀ o, (k o).Knows K ask fin b

section
variable {α β : Type} {K : Val → Prop} {ask : Int → Prop}

theorem Co.Knows.mono {fin : Except PyErr α → Prop} : ∀ (x : Co α) {b b' : Prop}, (b → b') → x.Knows K ask fin b → x.Knows K ask fin b'
  | .ret a, _, _, h, w => fun f => h (w f)
  | .throw e, _, _, h, w => fun f => h (w f)
  | .get k, _, _, h, w => fun g => Co.Knows.mono (k g) (Or.imp h id) (w g)
  | .upd _ k, _, _, h, w => Co.Knows.mono k h w
  | .request _ _ _ _ k, _, _, h, w => ⟨fun a => h (w.1 a), fun o => Co.Knows.mono (k o) h (w.2 o)⟩
  | .openConn _ k, _, _, h, w => fun o => Co.Knows.mono (k o) h (w o)
  | .sleep k, _, _, h, w => fun o => Co.Knows.mono (k o) h (w o)
  | .close _ _ k, _, _, h, w => fun o => Co.Knows.mono (k o) h (w o)
  | .acquire k, _, _, h, w => fun o => Co.Knows.mono (k o) h (w o)

theorem Co.knows_bindE {fin : Except PyErr α → Prop} {fin' : Except PyErr β → Prop} {f : Except PyErr α → Co β} : ∀ (x : Co α) (b : Prop), x.Knows K ask fin b →
    (∀ (o : Except PyErr α) (b' : Prop), (b → b') → (fin o → b') → (f o).Knows K ask fin' b') → (x.bindE f).Knows K ask fin' b
  | .ret a, _, w, h => h _ _ id w
  | .throw e, _, w, h => h _ _ id w
  | .get k, _, w, h => fun g => knows_bindE (k g) _ (w g) (fun o b' h1 h2 => h o b' (fun x => h1 (.inl x)) h2)
  | .upd _ k, _, w, h => knows_bindE k _ w h
  | .request _ _ _ _ k, _, w, h => ⟨w.1, fun o => knows_bindE (k o) _ (w.2 o) h⟩
  | .openConn _ k, _, w, h => fun o => knows_bindE (k o) _ (w o) h
  | .sleep k, _, w, h => fun o => knows_bindE (k o) _ (w o) h
  | .close _ _ k, _, w, h => fun o => knows_bindE (k o) _ (w o) h
  | .acquire k, _, w, h => fun o => knows_bindE (k o) _ (w o) h

/-- Whatever is known, nothing is claimed of the result. -/
def Co.Asks (K : Val → Prop) (ask : Int → Prop) (x : Co α) : Prop := ∀ b, x.Knows K ask (fun _ => False) b

/-- The result is normal. -/
def isOk (o : Except PyErr α) : Prop := ∃ a, o = .ok a

/-- Whatever is known before, `K` is known when it ends normally. -/
def Co.Learns (K : Val → Prop) (ask : Int → Prop) (x : Co α) : Prop := ∀ b, x.Knows K ask isOk b

theorem Co.asks_bindE {x : Co α} {f : Except PyErr α → Co β} (hx : x.Asks K ask) (hf : ∀ o, (f o).Asks K ask) : (x.bindE f).Asks K ask :=
  fun b => knows_bindE x b (hx b) (fun o b' _ _ => hf o b')

theorem Co.asks_bind {x : Co α} {f : α → Co β} (hx : x.Asks K ask) (hf : ∀ a, (f a).Asks K ask) : (x >>= f).Asks K ask := by
  refine asks_bindE (f := fun o => match o with | .ok a => f a | .error e => .throw e) hx ?_
  intro o
  cases o with
  | ok a => exact hf a
  | error e => exact fun b => False.elim

/-- A sequence learns what its end learns. -/
theorem Co.learns_then {x : Co α} {f : α → Co β} (hx : x.Asks K ask) (hf : ∀ a, (f a).Learns K ask) : (x >>= f).Learns K ask := by
  intro b
  refine knows_bindE (f := fun o => match o with | .ok a => f a | .error e => .throw e) x b (hx b) ?_
  intro o b' _ _
  cases o with
  | ok a => exact hf a b'
  | error e => exact fun ⟨a, ha⟩ => by cases ha

/-- What is known stays known. -/
theorem Co.Asks.keeps {x : Co α} (fin : Except PyErr α → Prop) : x.Asks K ask → ∀ b : Prop, b → x.Knows K ask fin b := by
  have key : ∀ (x : Co α) (b : Prop), b → x.Knows K ask (fun _ => False) b → x.Knows K ask fin b := by
    intro x
    induction x with
    | ret a => exact fun b hb _ _ => hb
    | throw e => exact fun b hb _ _ => hb
    | get k ih => exact fun b hb w g => ih g _ (.inl hb) (w g)
    | upd f k ih => exact fun b hb w => ih b hb w
    | request c code data r k ih => exact fun b hb w => ⟨w.1, fun o => ih o b hb (w.2 o)⟩
    | openConn r k ih => exact fun b hb w o => ih o b hb (w o)
    | sleep k ih => exact fun b hb w o => ih o b hb (w o)
    | close c force k ih => exact fun b hb w o => ih o b hb (w o)
    | acquire k ih => exact fun b hb w o => ih o b hb (w o)
  exact fun h b hb => key x b hb (h b)

/-- A sequence learns what its beginning learns. -/
theorem Co.learns_first {x : Co α} {f : α → Co β} (hx : x.Learns K ask) (hf : ∀ a, (f a).Asks K ask) : (x >>= f).Learns K ask := by
  intro b
  refine knows_bindE (f := fun o => match o with | .ok a => f a | .error e => .throw e) x b (hx b) ?_
  intro o b' _ h
  cases o with
  | ok a => exact (hf a).keeps _ b' (h ⟨a, rfl⟩)
  | error e => exact fun ⟨a, ha⟩ => by cases ha

theorem Co.Learns.asks {x : Co α} (h : x.Learns K ask) : x.Asks K ask := by
  have key : ∀ (x : Co α) (b : Prop), x.Knows K ask isOk b → x.Knows K ask (fun _ => False) b := by
    intro x
    induction x with
    | ret a => exact fun b _ => False.elim
    | throw e => exact fun b _ => False.elim
    | get k ih => exact fun b w g => ih g _ (w g)
    | upd f k ih => exact fun b w => ih b w
    | request c code data r k ih => exact fun b w => ⟨w.1, fun o => ih o b (w.2 o)⟩
    | openConn r k ih => exact fun b w o => ih o b (w o)
    | sleep k ih => exact fun b w o => ih o b (w o)
    | close c force k ih => exact fun b w o => ih o b (w o)
    | acquire k ih => exact fun b w o => ih o b (w o)
  exact fun b => key x b (h b)

theorem Co.asks_ret (a : α) : (Co.ret a).Asks K ask := fun b => False.elim
theorem Co.asks_pure (a : α) : (pure a : Co α).Asks K ask := fun b => False.elim
theorem Co.asks_throw (e : PyErr) : (Co.throw e : Co α).Asks K ask := fun b => False.elim
theorem Co.asks_state {f : Gw → Co α} (hf : ∀ g, (f g).Asks K ask) : (state >>= f).Asks K ask := fun b g => hf g _
theorem Co.asks_modify (f : Gw → Gw) : (modify f).Asks K ask := fun b => False.elim
theorem Co.asks_ofExcept (x : Except PyErr α) : (ofExcept x).Asks K ask := by
  cases x
  · exact asks_throw _
  · exact asks_ret _
theorem Co.asks_make (c : Nat) {code : Int} (h : ¬ ask code) (data : Bytes) (r : Int) : (makeRequest c code data r).Asks K ask :=
  fun b => ⟨fun a => absurd a h, fun o => asks_ofExcept o b⟩
theorem Co.asks_pause : pause.Asks K ask := fun b o => asks_ofExcept o b
theorem Co.asks_close (c : Nat) (force : Bool) : (closeConn c force).Asks K ask := fun b o => asks_ofExcept o b
theorem Co.asks_try {x : Co α} {f : PyErr → Co α} (hx : x.Asks K ask) (hf : ∀ e, (f e).Asks K ask) : (tryExcept x f).Asks K ask := by
  refine asks_bindE (f := fun o => match o with | .ok a => .ret a | .error e => f e) hx ?_
  intro o
  cases o with
  | ok a => exact asks_ret a
  | error e => exact hf e
theorem Co.asks_lock {x : Co α} (hx : x.Asks K ask) : (withLock x).Asks K ask := by
  intro b o
  cases o with
  | error e => exact False.elim
  | ok u => exact asks_bindE (f := fun r => .upd Gw.release (ofExcept r)) hx (fun o b => asks_ofExcept o b) b
theorem Co.asks_ite {c : Prop} [Decidable c] {x y : Co α} (hx : x.Asks K ask) (hy : y.Asks K ask) : (if c then x else y).Asks K ask := by
  split
  · exact hx
  · exact hy
theorem Co.asks_when {b : Bool} {x : Co Unit} (hx : x.Asks K ask) : (whenCo b x).Asks K ask := asks_ite hx (asks_ret _)

end

section
variable (E : Env) {K : Val → Prop} {ask : Int → Prop}

open Co

theorem asks_connect (a : ConnectArgs) : (asyncConnect a).Asks K ask := by
  intro b g
  refine (asks_ite (K := K) (ask := ask) (asks_ret _) ?_) _
  intro b g
  refine (asks_ite (K := K) (ask := ask) (asks_throw _) ?_) _
  exact fun b o => asks_ofExcept o b

theorem asks_ack {code : Int} (h : ¬ ask code) (payload : Except PyErr Bytes) (c : Nat) (r : Int) : (ackRequest code payload c r).Asks K ask :=
  asks_bind (asks_ofExcept _) (fun data => asks_bind (asks_make _ h _ _) (fun v => asks_ite (asks_ret _) (asks_throw _)))

theorem asks_decode (D : Decoder) (b : Bytes) : (decodeCo E D b).Asks K ask :=
  asks_state (fun g => asks_bind (asks_modify _) (fun _ => asks_ofExcept _))

theorem asks_query (D : Gw → Decoder) {code : Int} (h : ¬ ask code) (payload : Except PyErr Bytes) (c : Nat) (r : Int) :
    (queryRequest E D code payload c r).Asks K ask := by
  refine asks_bind (asks_ofExcept _) (fun data => asks_bind (asks_make _ h _ _) (fun v => ?_))
  split
  · exact asks_state (fun g => asks_bind (asks_decode E _ _) (fun _ => asks_ret _))
  · exact asks_ret _

variable (h24 : ¬ ask 12524) (h22 : ¬ ask 12522)
include h24

theorem asks_unsubscribeGateway : unsubscribeGateway.Asks K ask := by
  refine asks_state (fun g => asks_ite (asks_lock (asks_state (fun g => ?_))) (asks_ret _))
  split
  · exact asks_bind (asks_modify _) (fun _ => asks_bind (asks_modify _) (fun _ =>
      asks_bind (asks_modify _) (fun _ => asks_try (asks_ack h24 _ _ _) (fun e => asks_ite (asks_ret _) (asks_throw _)))))
  · exact asks_ret _

theorem asks_disconnect (force : Bool) : (asyncDisconnect force).Asks K ask := by
  refine asks_state (fun g => asks_bind (asks_when (asks_unsubscribeGateway h24)) (fun _ => asks_state (fun g => ?_)))
  split
  · exact asks_close _ _
  · exact fun b => False.elim

omit h24 in
theorem asks_attempt {α : Type} (r : Int) {method : Nat → Int → Co α} (hm : ∀ c r, (method c r).Asks K ask) :
    (attemptRequest r method).Asks K ask := by
  refine asks_bind (asks_connect _) (fun ok => asks_ite (asks_state (fun g => ?_)) (asks_throw _))
  split
  · exact hm _ _
  · exact asks_throw _

theorem asks_connected {α : Type} {method : Nat → Int → Co α} (hm : ∀ c r, (method c r).Asks K ask) :
    (connectedRequest method).Asks K ask :=
  asks_state (fun g => asks_try (asks_attempt _ hm) (fun e => asks_ite
    (asks_bind (asks_disconnect h24 _) (fun _ => asks_bind asks_pause (fun _ => asks_attempt _ hm))) (asks_throw _)))

theorem asks_poll {method : Nat → Int → Co (Option Bytes)} (key : Path) (hm : ∀ c r, (method c r).Asks K ask) : (poll key method).Asks K ask := by
  refine asks_bind (asks_connected h24 hm) (fun raw => ?_)
  split
  · exact asks_modify _
  · exact asks_ret _

include h22

theorem asks_subscribeGateway : subscribeGateway.Asks K ask := by
  refine asks_state (fun g => asks_ite (asks_lock (asks_state (fun g => asks_ite (asks_ret _) ?_))) (asks_ret _))
  refine asks_bind (asks_connected h24 (fun c r => asks_ack h22 _ _ _)) (fun _ => asks_bind (asks_modify _) (fun _ => asks_state (fun g => ?_)))
  split
  · exact asks_modify _
  · exact fun b => False.elim

omit h24 h22 in
theorem asks_registerAll (c : Nat) : ∀ l, (registerAll c l).Asks K ask
  | [] => asks_ret _
  | (code, _) :: rest => asks_bind (asks_modify _) (fun _ => asks_registerAll c rest)

theorem asks_attach (c : Nat) : (attach c).Asks K ask :=
  asks_bind (asks_modify _) (fun _ => asks_state (fun g => asks_ite
    (asks_bind (asks_modify _) (fun _ => asks_bind (asks_registerAll c _) (fun _ => asks_subscribeGateway h24 h22))) (asks_ret _)))

end

/-! ## Over a history -/

/-- The same for the rest of a task. -/
def Task.Knows (K : Val → Prop) (ask : Int → Prop) (fin : Except PyErr Res → Prop) (b : Prop) : Task → Prop
  | .request _ _ k => ∀ o, (k o).Knows K ask fin b
  | .opening _ k => ∀ o, (k o).Knows K ask fin b
  | .sleeping k => ∀ o, (k o).Knows K ask fin b
  | .closing _ _ k => ∀ o, (k o).Knows K ask fin b
  | .locked k => ∀ o, (k o).Knows K ask fin b
  | .done r => fin r → b

theorem Task.Knows.mono {K : Val → Prop} {ask : Int → Prop} {fin : Except PyErr Res → Prop} {b b' : Prop} (h : b → b') :
    ∀ (x : Task), x.Knows K ask fin b → x.Knows K ask fin b'
  | .request _ _ k, w => fun o => Co.Knows.mono _ h (w o)
  | .opening _ k, w => fun o => Co.Knows.mono _ h (w o)
  | .sleeping k, w => fun o => Co.Knows.mono _ h (w o)
  | .closing _ _ k, w => fun o => Co.Knows.mono _ h (w o)
  | .locked k, w => fun o => Co.Knows.mono _ h (w o)
  | .done r, w => fun f => h (w f)

/-- Requests in `ask` have been made only if `K`. -/
def LogK (K : Val → Prop) (ask : Int → Prop) (g : Gw) : Prop := ∀ t c code data, (t, Act.ask c code data) ∈ g.log → ask code → K g.data

section
variable {E : Env} {K : Val → Prop} {ask : Int → Prop} (hK : ∀ D b d, K d → K (decodeWith (Decoder.prog E.pyFloat D) b d).2)

theorem logK_note {g : Gw} (h : LogK K ask g) (t : Nat) (a : Act) (ha : ∀ c code data, a = .ask c code data → ask code → K g.data) : LogK K ask (g.note t a) := by
  intro t' c code data hm hc
  simp only [Gw.note, List.mem_append, List.mem_singleton] at hm
  rcases hm with hm | hm
  · exact h t' c code data hm hc
  · cases hm; exact ha c code data rfl hc

theorem logK_same {g g' : Gw} (h : LogK K ask g) (h1 : g'.log = g.log) (h2 : K g.data → K g'.data) : LogK K ask g' :=
  fun t c code data hm hc => h2 (h t c code data (h1 ▸ hm) hc)

include hK in
theorem micro_data {U : Prop} {g g' : Gw} (m : Micro E U g g') (h : K g.data) : K g'.data := by
  rcases data_cases m with e | ⟨t, D, code, payload, b, -, -, e⟩ | ⟨c, x, k, msg, D, -, -, -, -, e⟩ <;> rw [e]
  · exact h
  · exact hK _ _ _ h
  · exact hK _ _ _ h

include hK in
theorem settle_knows {U : Prop} {X : List Act → Val → Prop} {I : List Act → Prop} {fin : Except PyErr Res → Prop} (t : Nat) :
    ∀ (co : Co Res) (g : Gw), Steps (mon E U X I) t co g → co.Knows K ask fin (K g.data) → LogK K ask g →
      LogK K ask (settle t co g).2 ∧ (settle t co g).1.Knows K ask fin (K (settle t co g).2.data)
  | .ret a, g, _, w, h => ⟨h, w⟩
  | .throw e, g, _, w, h => ⟨h, w⟩
  | .get k, g, s, w, h => settle_knows t (k g) g s (Co.Knows.mono _ (fun o => o.elim id id) (w g)) h
  | .upd f k, g, s, w, h => by
    have hd : K g.data → K (g.apply f).data := micro_data (U := U) hK (.upd t _ _ s.1)
    exact settle_knows t k (g.apply f) s.2 (Co.Knows.mono _ hd w) (logK_same h rfl hd)
  | .request c code data r k, g, s, w, h => by
    have hl : LogK K ask (g.ask t c code data r).2 := by
      simp only [Gw.ask]
      exact logK_note (logK_same h rfl id) _ _ (fun c' code' data' e ha => by cases e; exact w.1 ha)
    simp only [settle]
    split
    · rename_i o ho
      exact settle_knows t (k o) _ (s.2 o ho) (w.2 o) (logK_note hl _ _ (fun _ _ _ e => by cases e))
    · exact ⟨hl, w.2⟩
  | .openConn r k, g, s, w, h => ⟨logK_note h _ _ (fun _ _ _ e => by cases e), w⟩
  | .sleep k, g, s, w, h => ⟨h, w⟩
  | .close c force k, g, s, w, h => by
    have hl : LogK K ask (g.startClose t c force).2 := by
      simp only [Gw.startClose]
      exact logK_note (logK_same h rfl id) _ _ (fun _ _ _ e => by cases e)
    simp only [settle]
    split
    · rename_i hc
      exact settle_knows t (k _) _ (s.2 hc) (w _) hl
    · exact ⟨hl, w⟩
  | .acquire k, g, s, w, h => by
    simp only [settle]
    split
    · rename_i hc
      exact settle_knows t (k _) _ (s hc) (w _) (logK_same h rfl id)
    · exact ⟨logK_same h rfl id, w⟩

/-- What holds of the system. -/
structure KnowsOk (K : Val → Prop) (ask : Int → Prop) (fin : Nat → Except PyErr Res → Prop) (s : Sys) : Prop where
  log : LogK K ask s.g
  tasks : ∀ (t : Nat) (x : Task), s.tasks[t]? = some x → x.Knows K ask (fin t) (K s.g.data)

include hK in
theorem KnowsOk.step {fin : Nat → Except PyErr Res → Prop} (hA : ∀ r c, (afterOpen E r c).Asks K ask) {s : Sys} (hs : SysOk E False s) (h : KnowsOk K ask fin s) (ev : Ev)
    (hsp : ∀ co g0, Spawned E s.g ev co g0 → co.Knows K ask (fin s.tasks.length) (K s.g.data)) : KnowsOk K ask fin (s.step E ev) := by
  have hM := mon_good E False noX (fun _ => True)
  have hd : K s.g.data → K (s.step E ev).g.data := fun hk =>
    (step_micro hs ev (fun u => u.elim)).inv (I := fun g => K g.data) (fun a b ha hb => micro_data hK hb ha) hk
  by_cases ho : ∃ t, t < s.tasks.length ∧ ev.own t = true
  · obtain ⟨t, ht, ho⟩ := ho
    rcases own_step_next E hM (Q := fun _ _ _ => True) ev (fun r hi => afterOpen_ok hc_true hs.inv trivial r trivial) ho (hs.tasks t ht) with
      he | ⟨co, g0, hr, he, hI, hwp, hn⟩
    · rw [he]; exact h
    · have hg0 : K s.g.data → K g0.data := fun hk =>
        (resumed_star (E := E) (U := False) hr).inv (I := fun g => K g.data) (fun a b ha (hb : OwnStep E False t a b) => micro_data hK hb.1 ha) hk
      have hl0 : LogK K ask g0 := by
        cases hr with
        | same => exact h.log
        | got o ho => exact logK_note h.log _ _ (fun _ _ _ e => by cases e)
        | opened => exact logK_same h.log rfl id
        | granted w hl => exact logK_same h.log rfl id
        | left w => exact logK_same h.log rfl id
      have hc : co.Knows K ask (fin t) (K g0.data) := by
        refine Co.Knows.mono _ hg0 ?_
        cases hn with
        | opened hk => exact Co.knows_bindE _ _ (hA _ _ _) (fun o b' hb _ => Co.Knows.mono _ hb (h.tasks t _ hk o))
        | opening hk => exact h.tasks t _ hk _
        | request hk => exact h.tasks t _ hk _
        | sleeping hk => exact h.tasks t _ hk _
        | closing hk => exact h.tasks t _ hk _
        | locked hk => exact h.tasks t _ hk _
      have hs' := settle_knows hK t co g0 (settle_ok hM (Q := fun _ _ _ => True) co g0 trivial hwp).2 hc hl0
      rw [he] at hd ⊢
      refine ⟨hs'.1, fun t' x hx => ?_⟩
      simp only [Sys.put, List.getElem?_set] at hx
      split at hx
      · rename_i e
        subst e
        cases hx; exact hs'.2
      · exact (h.tasks t' x hx).mono hd
  · rcases step_cases E s ev with ⟨t, co, g0, ho', ht, hr, he⟩ | ⟨co, g0, hp, he⟩ | ⟨g', hg, he⟩
    · exact absurd ⟨t, ht, ho'⟩ ho
    · have hg0 : g0.data = s.g.data := by cases hp <;> rfl
      have hl0 : LogK K ask g0 := logK_same h.log hp.log (by rw [hg0]; exact id)
      have hs' := settle_knows hK s.tasks.length co g0 (settle_ok hM (Q := fun _ _ _ => True) co g0 trivial (spawn_wp hs (fun u => u.elim) hp)).2
        (by rw [hg0]; exact hsp co g0 hp) hl0
      rw [he] at hd ⊢
      refine ⟨hs'.1, fun t' x hx => ?_⟩
      simp only [Sys.spawn, List.getElem?_append] at hx
      split at hx
      · exact (h.tasks t' x hx).mono hd
      · rename_i hlt
        rw [List.getElem?_singleton] at hx
        split at hx
        · rename_i e
          have : t' = s.tasks.length := by omega
          subst this
          cases hx
          exact hs'.2
        · cases hx
    · rw [he] at hd ⊢
      exact ⟨logK_same h.log hg.log hd, fun t x hx => (h.tasks t x hx).mono hd⟩

end
end SL
