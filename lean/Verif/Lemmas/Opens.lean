import Verif.Lemmas.Gains
import Verif.Spec.Latest
/-!
# Connecting answers True only after the version and the configuration queries were answered
-/
set_option linter.unusedVariables false
set_option maxRecDepth 20000
namespace SL

/-- When it returns normally a value in `R`, a request (code, payload) has been answered, unless `b`, one had been before; opening a connection
successfully is taken to do that. -/
def Co.Wins {α : Type} (R : α → Prop) (code : Int) (data : Bytes) : Prop → Co α → Prop
  | b, .ret a => R a → b
  | b, .throw e => True
  | b, .get k => ∀ g : Gw, (k g).Wins R code data b
  | b, .upd f k => k.Wins R code data b
  | b, .request _ code' data' _ k => ∀ o, (k o).Wins R code data (b ∨ (code' = code ∧ data' = data ∧ ∃ v, o = .ok v))
  | b, .openConn _ k => ∀ o, (k o).Wins R code data (b ∨ o = .ok true)
  | b, .sleep k => ∀ o, (k o).Wins R code data b
  | b, .close _ _ k => ∀ o, (k o).Wins R code data b
  | b, .acquire k => ∀ o, (k o).Wins R code data b

/-- It returns something normally. -/
def AnyRes {α : Type} (a : α) : Prop := True

section
variable {α β : Type} {code : Int} {data : Bytes} {R : α → Prop} {R' : β → Prop}

theorem Co.Wins.mono : ∀ (x : Co α) {b b' : Prop}, (b → b') → x.Wins R code data b → x.Wins R code data b'
  | .ret a, _, _, h, w => fun r => h (w r)
  | .throw e, _, _, h, w => trivial
  | .get k, _, _, h, w => fun g => Co.Wins.mono (k g) h (w g)
  | .upd _ k, _, _, h, w => Co.Wins.mono k h w
  | .request _ _ _ _ k, _, _, h, w => fun o => Co.Wins.mono (k o) (fun x => x.imp h id) (w o)
  | .openConn _ k, _, _, h, w => fun o => Co.Wins.mono (k o) (fun x => x.imp h id) (w o)
  | .sleep k, _, _, h, w => fun o => Co.Wins.mono (k o) h (w o)
  | .close _ _ k, _, _, h, w => fun o => Co.Wins.mono (k o) h (w o)
  | .acquire k, _, _, h, w => fun o => Co.Wins.mono (k o) h (w o)

/-- Once answered, always. -/
theorem Co.wins_true : ∀ (x : Co α) {b : Prop}, b → x.Wins R code data b
  | .ret a, _, h => fun _ => h
  | .throw e, _, h => trivial
  | .get k, _, h => fun g => wins_true (k g) h
  | .upd _ k, _, h => wins_true k h
  | .request _ _ _ _ k, _, h => fun o => wins_true (k o) (.inl h)
  | .openConn _ k, _, h => fun o => wins_true (k o) (.inl h)
  | .sleep k, _, h => fun o => wins_true (k o) h
  | .close _ _ k, _, h => fun o => wins_true (k o) h
  | .acquire k, _, h => fun o => wins_true (k o) h

/-- What comes after asks. -/
theorem Co.wins_bindE {f : Except PyErr α → Co β} : ∀ (x : Co α) {b : Prop}, (∀ o, (f o).Wins R' code data b) → (x.bindE f).Wins R' code data b
  | .ret a, _, h => h _
  | .throw e, _, h => h _
  | .get k, _, h => fun g => wins_bindE (k g) h
  | .upd _ k, _, h => wins_bindE k h
  | .request _ _ _ _ k, _, h => fun o => wins_bindE (k o) (fun o' => Co.Wins.mono _ .inl (h o'))
  | .openConn _ k, _, h => fun o => wins_bindE (k o) (fun o' => Co.Wins.mono _ .inl (h o'))
  | .sleep k, _, h => fun o => wins_bindE (k o) h
  | .close _ _ k, _, h => fun o => wins_bindE (k o) h
  | .acquire k, _, h => fun o => wins_bindE (k o) h

/-- What comes first asks. -/
theorem Co.wins_bindE_first {f : Except PyErr α → Co β} : ∀ (x : Co α) {b : Prop}, x.Wins R code data b →
    (∀ e, (f (.error e)).Wins R' code data b) → (∀ a, (f (.ok a)).Wins R' code data (b ∨ R a)) → (x.bindE f).Wins R' code data b
  | .ret a, _, w, h, h' => Co.Wins.mono _ (fun x => x.elim id w) (h' a)
  | .throw e, _, w, h, h' => h _
  | .get k, _, w, h, h' => fun g => wins_bindE_first (k g) (w g) h h'
  | .upd _ k, _, w, h, h' => wins_bindE_first k w h h'
  | .request _ _ _ _ k, _, w, h, h' => fun o => wins_bindE_first (k o) (w o) (fun e => Co.Wins.mono _ .inl (h e)) (fun a => Co.Wins.mono _ (fun x => x.imp .inl id) (h' a))
  | .openConn _ k, _, w, h, h' => fun o => wins_bindE_first (k o) (w o) (fun e => Co.Wins.mono _ .inl (h e)) (fun a => Co.Wins.mono _ (fun x => x.imp .inl id) (h' a))
  | .sleep k, _, w, h, h' => fun o => wins_bindE_first (k o) (w o) h h'
  | .close _ _ k, _, w, h, h' => fun o => wins_bindE_first (k o) (w o) h h'
  | .acquire k, _, w, h, h' => fun o => wins_bindE_first (k o) (w o) h h'

theorem Co.wins_first {x : Co α} {f : α → Co β} {b : Prop} (hx : x.Wins AnyRes code data b) : (x >>= f).Wins R' code data b :=
  wins_bindE_first (f := fun o => match o with | .ok a => f a | .error e => .throw e) x hx (fun e => trivial)
    (fun a => wins_true _ (.inr trivial))
theorem Co.wins_then {x : Co α} {f : α → Co β} {b : Prop} (hf : ∀ a, (f a).Wins R' code data b) : (x >>= f).Wins R' code data b := by
  refine wins_bindE (f := fun o => match o with | .ok a => f a | .error e => .throw e) x ?_
  intro o
  cases o with
  | ok a => exact hf a
  | error e => exact trivial
theorem Co.wins_try {x : Co α} {f : PyErr → Co α} {b : Prop} (hx : x.Wins AnyRes code data b) (hf : ∀ e, (f e).Wins R code data b) :
    (tryExcept x f).Wins R code data b :=
  wins_bindE_first (f := fun o => match o with | .ok a => .ret a | .error e => f e) x hx hf (fun a => wins_true _ (.inr trivial))
theorem Co.wins_ite {c : Prop} [Decidable c] {x y : Co α} {b : Prop} (hx : x.Wins R code data b) (hy : y.Wins R code data b) :
    (if c then x else y).Wins R code data b := by
  split
  · exact hx
  · exact hy
theorem Co.wins_throw (e : PyErr) {b : Prop} : (Co.throw e : Co α).Wins R code data b := trivial
theorem Co.wins_state {f : Gw → Co α} {b : Prop} (hf : ∀ g, (f g).Wins R code data b) : (state >>= f).Wins R code data b := fun g => hf g
theorem Co.wins_make (c : Nat) (r : Int) {b : Prop} {R : Option Bytes → Prop} : (makeRequest c code data r).Wins R code data b := by
  intro o
  cases o with
  | ok v => exact fun _ => .inr ⟨rfl, rfl, v, rfl⟩
  | error e => exact trivial
end

section
variable (E : Env) {code : Int} {data : Bytes}
open Co

theorem wins_query {D : Gw → Decoder} {payload : Except PyErr Bytes} (hp : payload = .ok data) (c : Nat) (r : Int) :
    (queryRequest E D code payload c r).Wins AnyRes code data False := by
  subst hp
  exact wins_first (x := makeRequest c code data r) (wins_make c r)

theorem wins_attempt {α : Type} (r : Int) {method : Nat → Int → Co α} (hm : ∀ c r, (method c r).Wins AnyRes code data False) :
    (attemptRequest r method).Wins AnyRes code data False := by
  refine wins_then (fun ok => wins_ite (wins_state (fun g => ?_)) (wins_throw _))
  split
  · exact hm _ _
  · exact wins_throw _

theorem wins_connected {α : Type} {method : Nat → Int → Co α} (hm : ∀ c r, (method c r).Wins AnyRes code data False) :
    (connectedRequest method).Wins AnyRes code data False :=
  wins_state (fun g => wins_try (wins_attempt _ hm) (fun e => wins_ite (wins_then (fun _ => wins_then (fun _ => wins_attempt _ hm))) (wins_throw _)))

theorem wins_poll {method : Nat → Int → Co (Option Bytes)} (key : Path) (hm : ∀ c r, (method c r).Wins AnyRes code data False) :
    (poll key method).Wins AnyRes code data False := wins_first (wins_connected hm)

theorem wins_afterOpen {x : Int × Bytes} (hx : x ∈ connectQueries) (r : Int) (c : Nat) : (afterOpen E r c).Wins (fun ok => ok = true) x.1 x.2 False := by
  refine wins_then (fun mac => ?_)
  split
  · exact fun h => absurd h (by simp)
  · simp only [connectQueries, List.mem_cons, List.not_mem_nil, or_false] at hx
    rcases hx with rfl | rfl
    · exact wins_then (fun _ => wins_first (wins_state (fun g => wins_first (wins_query E rfl _ _))))
    · refine wins_then (fun _ => wins_then (fun _ => wins_state (fun g => wins_ite ?_ (fun h => absurd h (by simp)))))
      exact wins_first (wins_poll _ (fun c r => wins_query E (by decide +kernel) c r))

/-- Connecting when the gateway is not connected. -/
theorem wins_connect {x : Int × Bytes} (a : ConnectArgs) {g : Gw} (hg : g.isConnected = false) (t : Nat) :
    ∃ co : Co Res, co.Wins (fun r => r = .bool true) x.1 x.2 False ∧ ∀ s, s = g → settle t ((Call.connect a).co E) s = settle t co s := by
  refine ⟨((Co.upd (·.remember a) (.get fun g => if g.noIp then .throw .slError else .openConn g.maxRetries ofExcept) : Co Bool) >>= fun ok => (pure (.bool ok) : Co Res)), ?_, ?_⟩
  · intro g
    show Co.Wins _ _ _ _ (Co.bindE (if g.noIp then .throw .slError else .openConn g.maxRetries ofExcept) _)
    split
    · exact trivial
    · intro o
      cases o with
      | ok ok =>
        intro h
        right
        cases ok with
        | true => rfl
        | false => cases h
      | error e => exact trivial
  · rintro s rfl
    show settle t (Co.bindE (if s.isConnected = true then .ret true else _) _) s = _
    rw [if_neg (by simp [hg])]
    rfl
end

/-- The rest of a task. -/
def Task.Wins (code : Int) (data : Bytes) (h : List Act) : Task → Prop
  | .request _ _ k => ∃ h0 c code' data', h = h0 ++ [.ask c code' data'] ∧
      ∀ o, (k o).Wins (fun r => r = .bool true) code data (AnsIn code data h ∨ (code' = code ∧ data' = data ∧ ∃ v, o = .ok v))
  | .opening _ k => ∀ o, (k o).Wins (fun r => r = .bool true) code data (AnsIn code data h ∨ o = .ok true)
  | .sleeping k => ∀ o, (k o).Wins (fun r => r = .bool true) code data (AnsIn code data h)
  | .closing _ _ k => ∀ o, (k o).Wins (fun r => r = .bool true) code data (AnsIn code data h)
  | .locked k => ∀ o, (k o).Wins (fun r => r = .bool true) code data (AnsIn code data h)
  | .done (.ok r) => r = .bool true → AnsIn code data h
  | .done (.error _) => True

theorem settle_wins {code : Int} {data : Bytes} (t : Nat) : ∀ (co : Co Res) (g : Gw) (b : Prop), co.Wins (fun r => r = .bool true) code data b →
    (b → AnsIn code data (g.acts t)) → (settle t co g).1.Wins code data ((settle t co g).2.acts t)
  | .ret a, g, b, w, h => fun r => h (w r)
  | .throw e, g, b, w, h => trivial
  | .get k, g, b, w, h => settle_wins t (k g) g b (w g) h
  | .upd f k, g, b, w, h => settle_wins t k (g.apply f) b w h
  | .request c code' data' r k, g, b, w, h => by
    have ha : (g.ask t c code' data' r).2.acts t = g.acts t ++ [.ask c code' data'] := acts_ask_same g t c code' data' r
    simp only [settle]
    split
    · rename_i o ho
      have ha' := acts_note_same (g.ask t c code' data' r).2 t (.got o)
      refine settle_wins t (k o) _ _ (w o) ?_
      rw [ha', ha]
      rintro (hb | ⟨rfl, rfl, v, rfl⟩)
      · exact ((h hb).more _).more _
      · exact ⟨g.acts t, c, v, [], by simp⟩
    · refine ⟨_, _, _, _, ha, fun o => Co.Wins.mono _ ?_ (w o)⟩
      rintro (hb | hx)
      · exact .inl (by rw [ha]; exact (h hb).more _)
      · exact .inr hx
  | .openConn r k, g, b, w, h => fun o => Co.Wins.mono _ (fun hb => hb.imp (fun hb => by
      show AnsIn code data ((g.note t _).acts t)
      rw [acts_note_same]; exact (h hb).more _) id) (w o)
  | .sleep k, g, b, w, h => fun o => Co.Wins.mono _ h (w o)
  | .close c force k, g, b, w, h => by
    have ha := acts_close_same g t c force
    have hb' : b → AnsIn code data ((g.startClose t c force).2.acts t) := fun hb => by rw [ha]; exact (h hb).more _
    simp only [settle]
    split
    · exact settle_wins t _ _ b (w _) hb'
    · exact fun o => Co.Wins.mono _ hb' (w o)
  | .acquire k, g, b, w, h => by
    simp only [settle]
    split
    · exact settle_wins t _ (g.take t) b (w _) h
    · exact fun o => Co.Wins.mono _ h (w o)

/-- A task that waits for its connection goes on when it has it or when it is told it cannot have it. -/
theorem own_step_opening {E : Env} {s : Sys} (ev : Ev) {t : Nat} (ho : ev.own t = true) {r : Int} {k : Except PyErr Bool → Co Res}
    (hk : s.tasks[t]? = some (.opening r k)) :
    s.step E ev = s ∨ s.step E ev = s.put t (settle t ((afterOpen E r s.g.conns.length).bindE k) s.g.addConn) ∨
      ∃ e, s.step E ev = s.put t (settle t (k (.error e)) s.g) := by
  cases ev with
  | opened t' ok =>
    have : t' = t := by simpa [Ev.own] using ho
    subst this
    simp only [Sys.step, hk]
    split
    · exact .inr (.inl rfl)
    · exact .inr (.inr ⟨_, rfl⟩)
  | resume t' =>
    have : t' = t := by simpa [Ev.own] using ho
    subst this
    left
    simp only [Sys.step, hk]
  | cancel t' =>
    have : t' = t := by simpa [Ev.own] using ho
    subst this
    simp only [Sys.step, hk]
    exact .inr (.inr ⟨_, rfl⟩)
  | _ => simp [Ev.own] at ho

theorem wins_step {E : Env} {x : Int × Bytes} (hq : x ∈ connectQueries) {s : Sys} (hs : SysOk E False s) (ev : Ev) {t : Nat} {y : Task} (hx : s.tasks[t]? = some y)
    (he : y.Wins x.1 x.2 (s.g.acts t)) : ∃ x', (s.step E ev).tasks[t]? = some x' ∧ x'.Wins x.1 x.2 ((s.step E ev).g.acts t) := by
  have hM := mon_good E False noX (fun _ => True)
  have ht : t < s.tasks.length := (List.getElem?_eq_some_iff.1 hx).1
  by_cases ho : ev.own t = true
  · by_cases hk : ∃ c r k, s.tasks[t]? = some (.request c r k)
    · obtain ⟨c, r, k, hk⟩ := hk
      rw [hx] at hk
      cases hk
      obtain ⟨h0, c', code', data', ha, hk1⟩ := he
      rcases own_step_request (E := E) hM ev ho (hs.tasks t ht) hx with e | ⟨o, e, hI, hwp⟩
      · rw [e]; exact ⟨_, hx, h0, c', code', data', ha, hk1⟩
      · rw [e]
        refine ⟨_, put_self ht _, settle_wins t (k o) _ _ (hk1 o) ?_⟩
        rw [acts_note_same]
        rintro (hb | ⟨rfl, rfl, v, rfl⟩)
        · exact hb.more _
        · exact ⟨h0, c', v, [], by rw [ha]; simp⟩
    · by_cases hop : ∃ r k, s.tasks[t]? = some (.opening r k)
      · obtain ⟨r, k, hop⟩ := hop
        have he : ∀ o, (k o).Wins (fun r => r = .bool true) x.1 x.2 (AnsIn x.1 x.2 (s.g.acts t) ∨ o = .ok true) := by
          rw [hx] at hop; cases hop; exact he
        rcases own_step_opening (E := E) ev ho hop with e | e | ⟨er, e⟩
        · rw [e]
          refine ⟨_, hop, he⟩
        · rw [e]
          refine ⟨_, put_self ht _, settle_wins t _ s.g.addConn (AnsIn x.1 x.2 (s.g.acts t)) ?_ id⟩
          refine Co.wins_bindE_first (R := fun ok => ok = true) _ (Co.Wins.mono _ False.elim (wins_afterOpen E hq _ _)) ?_ ?_
          · exact fun e => Co.Wins.mono _ (fun h => h.elim id (fun h => by cases h)) (he _)
          · exact fun a => Co.Wins.mono _ (fun h => h.imp id (fun h => by cases h; rfl)) (he _)
        · rw [e]
          refine ⟨_, put_self ht _, settle_wins t _ s.g (AnsIn x.1 x.2 (s.g.acts t)) ?_ id⟩
          exact Co.Wins.mono _ (fun h => h.elim id (fun h => by cases h)) (he _)
      · rcases own_step_next E hM (Q := fun _ _ _ => True) ev (fun r hi => afterOpen_ok hc_true hs.inv trivial r trivial) ho (hs.tasks t ht) with
          e | ⟨co, g0, hr, e, hI, hwp, hn⟩
        · rw [e]; exact ⟨y, hx, he⟩
        · have hg : g0.acts t = s.g.acts t := by
            cases hr with
            | got o ho' =>
              obtain ⟨c, r, -, k, hk'⟩ := ho'
              exact absurd ⟨c, r, k, hk'⟩ hk
            | _ => rfl
          rw [e]
          refine ⟨_, put_self ht _, settle_wins t co g0 (AnsIn x.1 x.2 (s.g.acts t)) ?_ (fun h => by rw [hg]; exact h)⟩
          cases hn with
          | opened hk' => exact absurd ⟨_, _, hk'⟩ hop
          | opening hk' => exact absurd ⟨_, _, hk'⟩ hop
          | request hk' => exact absurd ⟨_, _, _, hk'⟩ hk
          | sleeping hk' => rw [hx] at hk'; cases hk'; exact he _
          | closing hk' => rw [hx] at hk'; cases hk'; exact he _
          | locked hk' => rw [hx] at hk'; cases hk'; exact he _
  · obtain ⟨h1, h2⟩ := step_other_task E s ev ht (by simpa using ho)
    exact ⟨y, by rw [h1, hx], by rw [h2]; exact he⟩

end SL
