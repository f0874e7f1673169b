import Verif.Lemmas.Reply
/-!
# A coroutine that returns has been answered
-/
set_option linter.unusedVariables false
set_option maxRecDepth 20000
namespace SL

/-- When it returns normally, a request (code, payload) has been answered, unless `b`, one had been before. -/
def Co.Gains {α : Type} (code : Int) (data : Bytes) : Prop → Co α → Prop
  | b, .ret a => b
  | b, .throw e => True
  | b, .get k => ∀ g : Gw, (k g).Gains code data b
  | b, .upd f k => k.Gains code data b
  | b, .request _ code' data' _ k => ∀ o, (k o).Gains code data (b ∨ (code' = code ∧ data' = data ∧ ∃ v, o = .ok v))
  | b, .openConn _ k => ∀ o, (k o).Gains code data b
  | b, .sleep k => ∀ o, (k o).Gains code data b
  | b, .close _ _ k => ∀ o, (k o).Gains code data b
  | b, .acquire k => ∀ o, (k o).Gains code data b

section
variable {α β : Type} {code : Int} {data : Bytes}

theorem Co.Gains.mono : ∀ (x : Co α) {b b' : Prop}, (b → b') → x.Gains code data b → x.Gains code data b'
  | .ret a, _, _, h, w => h w
  | .throw e, _, _, h, w => trivial
  | .get k, _, _, h, w => fun g => Co.Gains.mono (k g) h (w g)
  | .upd _ k, _, _, h, w => Co.Gains.mono k h w
  | .request _ _ _ _ k, _, _, h, w => fun o => Co.Gains.mono (k o) (fun x => x.imp h id) (w o)
  | .openConn _ k, _, _, h, w => fun o => Co.Gains.mono (k o) h (w o)
  | .sleep k, _, _, h, w => fun o => Co.Gains.mono (k o) h (w o)
  | .close _ _ k, _, _, h, w => fun o => Co.Gains.mono (k o) h (w o)
  | .acquire k, _, _, h, w => fun o => Co.Gains.mono (k o) h (w o)

/-- Once answered, always. -/
theorem Co.gains_true : ∀ (x : Co α) {b : Prop}, b → x.Gains code data b
  | .ret a, _, h => h
  | .throw e, _, h => trivial
  | .get k, _, h => fun g => gains_true (k g) h
  | .upd _ k, _, h => gains_true k h
  | .request _ _ _ _ k, _, h => fun o => gains_true (k o) (.inl h)
  | .openConn _ k, _, h => fun o => gains_true (k o) h
  | .sleep k, _, h => fun o => gains_true (k o) h
  | .close _ _ k, _, h => fun o => gains_true (k o) h
  | .acquire k, _, h => fun o => gains_true (k o) h

/-- What comes after asks. -/
theorem Co.gains_bindE {f : Except PyErr α → Co β} : ∀ (x : Co α) {b : Prop}, (∀ o, (f o).Gains code data b) → (x.bindE f).Gains code data b
  | .ret a, _, h => h _
  | .throw e, _, h => h _
  | .get k, _, h => fun g => gains_bindE (k g) h
  | .upd _ k, _, h => gains_bindE k h
  | .request _ _ _ _ k, _, h => fun o => gains_bindE (k o) (fun o' => Co.Gains.mono _ .inl (h o'))
  | .openConn _ k, _, h => fun o => gains_bindE (k o) h
  | .sleep k, _, h => fun o => gains_bindE (k o) h
  | .close _ _ k, _, h => fun o => gains_bindE (k o) h
  | .acquire k, _, h => fun o => gains_bindE (k o) h

/-- What comes first asks, and an exception is dealt with by something that asks. -/
theorem Co.gains_bindE_first {f : Except PyErr α → Co β} : ∀ (x : Co α) {b : Prop}, x.Gains code data b → (∀ e, (f (.error e)).Gains code data b) →
    (x.bindE f).Gains code data b
  | .ret a, _, w, h => gains_true _ w
  | .throw e, _, w, h => h _
  | .get k, _, w, h => fun g => gains_bindE_first (k g) (w g) h
  | .upd _ k, _, w, h => gains_bindE_first k w h
  | .request _ _ _ _ k, _, w, h => fun o => gains_bindE_first (k o) (w o) (fun e => Co.Gains.mono _ .inl (h e))
  | .openConn _ k, _, w, h => fun o => gains_bindE_first (k o) (w o) h
  | .sleep k, _, w, h => fun o => gains_bindE_first (k o) (w o) h
  | .close _ _ k, _, w, h => fun o => gains_bindE_first (k o) (w o) h
  | .acquire k, _, w, h => fun o => gains_bindE_first (k o) (w o) h

theorem Co.gains_first {x : Co α} {f : α → Co β} {b : Prop} (hx : x.Gains code data b) : (x >>= f).Gains code data b :=
  gains_bindE_first (f := fun o => match o with | .ok a => f a | .error e => .throw e) x hx (fun e => trivial)
theorem Co.gains_then {x : Co α} {f : α → Co β} {b : Prop} (hf : ∀ a, (f a).Gains code data b) : (x >>= f).Gains code data b := by
  refine gains_bindE (f := fun o => match o with | .ok a => f a | .error e => .throw e) x ?_
  intro o
  cases o with
  | ok a => exact hf a
  | error e => exact trivial
theorem Co.gains_try {x : Co α} {f : PyErr → Co α} {b : Prop} (hx : x.Gains code data b) (hf : ∀ e, (f e).Gains code data b) :
    (tryExcept x f).Gains code data b :=
  gains_bindE_first (f := fun o => match o with | .ok a => .ret a | .error e => f e) x hx hf
theorem Co.gains_ite {c : Prop} [Decidable c] {x y : Co α} {b : Prop} (hx : x.Gains code data b) (hy : y.Gains code data b) :
    (if c then x else y).Gains code data b := by
  split
  · exact hx
  · exact hy
theorem Co.gains_throw (e : PyErr) {b : Prop} : (Co.throw e : Co α).Gains code data b := trivial
theorem Co.gains_state {f : Gw → Co α} {b : Prop} (hf : ∀ g, (f g).Gains code data b) : (state >>= f).Gains code data b := fun g => hf g
theorem Co.gains_make (c : Nat) (r : Int) {b : Prop} : (makeRequest c code data r).Gains code data b := by
  intro o
  cases o with
  | ok v => exact .inr ⟨rfl, rfl, v, rfl⟩
  | error e => exact trivial
end

section
variable (E : Env) {code : Int} {data : Bytes}
open Co

theorem gains_query {D : Gw → Decoder} {payload : Except PyErr Bytes} (hp : payload = .ok data) (c : Nat) (r : Int) :
    (queryRequest E D code payload c r).Gains code data False := by
  subst hp
  exact gains_first (x := makeRequest c code data r) (gains_make c r)

theorem gains_attempt {α : Type} (r : Int) {method : Nat → Int → Co α} (hm : ∀ c r, (method c r).Gains code data False) :
    (attemptRequest r method).Gains code data False := by
  refine gains_then (fun ok => gains_ite (gains_state (fun g => ?_)) (gains_throw _))
  split
  · exact hm _ _
  · exact gains_throw _

theorem gains_connected {α : Type} {method : Nat → Int → Co α} (hm : ∀ c r, (method c r).Gains code data False) :
    (connectedRequest method).Gains code data False :=
  gains_state (fun g => gains_try (gains_attempt _ hm) (fun e => gains_ite (gains_then (fun _ => gains_then (fun _ => gains_attempt _ hm))) (gains_throw _)))

theorem gains_poll {method : Nat → Int → Co (Option Bytes)} (key : Path) (hm : ∀ c r, (method c r).Gains code data False) :
    (poll key method).Gains code data False := gains_first (gains_connected hm)

theorem gains_update {x : Int × Bytes} (hx : x ∈ [statusRequest, chemistryRequest, scgRequest, dateTimeRequest]) :
    (asyncUpdate E).Gains x.1 x.2 False := by
  refine gains_state (fun g => gains_ite ?_ (gains_throw _))
  simp only [List.mem_cons, List.not_mem_nil, or_false] at hx
  rcases hx with rfl | rfl | rfl | rfl
  · exact gains_first (gains_poll _ (fun c r => gains_query E (by decide +kernel) c r))
  · exact gains_then (fun _ => gains_then (fun _ => gains_first (gains_poll _ (fun c r => gains_query E (by decide +kernel) c r))))
  · exact gains_then (fun _ => gains_then (fun _ => gains_then (fun _ => gains_first (gains_poll _ (fun c r => gains_query E (by decide +kernel) c r)))))
  · exact gains_then (fun _ => gains_then (fun _ => gains_then (fun _ => gains_then (fun _ => gains_poll _ (fun c r => gains_query E (by rfl) c r)))))
end

/-- One of these requests has been answered. -/
def AnsIn (code : Int) (data : Bytes) (h : List Act) : Prop := ∃ l1 c v l2, h = l1 ++ .ask c code data :: .got (.ok v) :: l2

theorem AnsIn.more {code : Int} {data : Bytes} {h : List Act} (a : AnsIn code data h) (l : List Act) : AnsIn code data (h ++ l) := by
  obtain ⟨l1, c, v, l2, rfl⟩ := a
  exact ⟨l1, c, v, l2 ++ l, by simp⟩

/-- The rest of a task. -/
def Task.Gains (code : Int) (data : Bytes) (h : List Act) : Task → Prop
  | .request _ _ k => ∃ h0 c code' data', h = h0 ++ [.ask c code' data'] ∧
      ∀ o, (k o).Gains code data (AnsIn code data h ∨ (code' = code ∧ data' = data ∧ ∃ v, o = .ok v))
  | .opening _ k => ∀ o, (k o).Gains code data (AnsIn code data h)
  | .sleeping k => ∀ o, (k o).Gains code data (AnsIn code data h)
  | .closing _ _ k => ∀ o, (k o).Gains code data (AnsIn code data h)
  | .locked k => ∀ o, (k o).Gains code data (AnsIn code data h)
  | .done (.ok _) => AnsIn code data h
  | .done (.error _) => True

theorem settle_gains {code : Int} {data : Bytes} (t : Nat) : ∀ (co : Co Res) (g : Gw) (b : Prop), co.Gains code data b → (b → AnsIn code data (g.acts t)) →
    (settle t co g).1.Gains code data ((settle t co g).2.acts t)
  | .ret a, g, b, w, h => h w
  | .throw e, g, b, w, h => trivial
  | .get k, g, b, w, h => settle_gains t (k g) g b (w g) h
  | .upd f k, g, b, w, h => settle_gains t k (g.apply f) b w h
  | .request c code' data' r k, g, b, w, h => by
    have ha : (g.ask t c code' data' r).2.acts t = g.acts t ++ [.ask c code' data'] := acts_ask_same g t c code' data' r
    simp only [settle]
    split
    · rename_i o ho
      have ha' := acts_note_same (g.ask t c code' data' r).2 t (.got o)
      refine settle_gains t (k o) _ _ (w o) ?_
      rw [ha', ha]
      rintro (hb | ⟨rfl, rfl, v, rfl⟩)
      · exact ((h hb).more _).more _
      · exact ⟨g.acts t, c, v, [], by simp⟩
    · refine ⟨_, _, _, _, ha, fun o => Co.Gains.mono _ ?_ (w o)⟩
      rintro (hb | hx)
      · exact .inl (by rw [ha]; exact (h hb).more _)
      · exact .inr hx
  | .openConn r k, g, b, w, h => fun o => Co.Gains.mono _ (fun hb => by
      show AnsIn code data ((g.note t _).acts t)
      rw [acts_note_same]; exact (h hb).more _) (w o)
  | .sleep k, g, b, w, h => fun o => Co.Gains.mono _ h (w o)
  | .close c force k, g, b, w, h => by
    have ha := acts_close_same g t c force
    have hb' : b → AnsIn code data ((g.startClose t c force).2.acts t) := fun hb => by rw [ha]; exact (h hb).more _
    simp only [settle]
    split
    · exact settle_gains t _ _ b (w _) hb'
    · exact fun o => Co.Gains.mono _ hb' (w o)
  | .acquire k, g, b, w, h => by
    simp only [settle]
    split
    · exact settle_gains t _ (g.take t) b (w _) h
    · exact fun o => Co.Gains.mono _ h (w o)

theorem gains_step {E : Env} {code : Int} {data : Bytes} {s : Sys} (hs : SysOk E False s) (ev : Ev) {t : Nat} {x : Task} (hx : s.tasks[t]? = some x)
    (he : x.Gains code data (s.g.acts t)) : ∃ x', (s.step E ev).tasks[t]? = some x' ∧ x'.Gains code data ((s.step E ev).g.acts t) := by
  have hM := mon_good E False noX (fun _ => True)
  have ht : t < s.tasks.length := (List.getElem?_eq_some_iff.1 hx).1
  by_cases ho : ev.own t = true
  · by_cases hk : ∃ c r k, s.tasks[t]? = some (.request c r k)
    · obtain ⟨c, r, k, hk⟩ := hk
      rw [hx] at hk
      cases hk
      obtain ⟨h0, c', code', data', ha, hk1⟩ := he
      rcases own_step_request (E := E) hM ev ho (hs.tasks t ht) hx with e | ⟨o, e, hI, hwp⟩
      · rw [e]; exact ⟨_, hx, h0, c', code', data', ha, hk1⟩
      · rw [e]
        refine ⟨_, put_self ht _, settle_gains t (k o) _ _ (hk1 o) ?_⟩
        rw [acts_note_same]
        rintro (hb | ⟨rfl, rfl, v, rfl⟩)
        · exact hb.more _
        · exact ⟨h0, c', v, [], by rw [ha]; simp⟩
    · rcases own_step_next E hM (Q := fun _ _ _ => True) ev (fun r hi => afterOpen_ok hc_true hs.inv trivial r trivial) ho (hs.tasks t ht) with
        e | ⟨co, g0, hr, e, hI, hwp, hn⟩
      · rw [e]; exact ⟨x, hx, he⟩
      · have hg : g0.acts t = s.g.acts t := by
          cases hr with
          | got o ho' =>
            obtain ⟨c, r, -, k, hk'⟩ := ho'
            exact absurd ⟨c, r, k, hk'⟩ hk
          | _ => rfl
        rw [e]
        refine ⟨_, put_self ht _, settle_gains t co g0 (AnsIn code data (s.g.acts t)) ?_ (fun h => by rw [hg]; exact h)⟩
        cases hn with
        | opened hk' => rw [hx] at hk'; cases hk'; exact Co.gains_bindE _ he
        | opening hk' => rw [hx] at hk'; cases hk'; exact he _
        | request hk' => exact absurd ⟨_, _, _, hk'⟩ hk
        | sleeping hk' => rw [hx] at hk'; cases hk'; exact he _
        | closing hk' => rw [hx] at hk'; cases hk'; exact he _
        | locked hk' => rw [hx] at hk'; cases hk'; exact he _
  · obtain ⟨h1, h2⟩ := step_other_task E s ev ht (by simpa using ho)
    exact ⟨x, by rw [h1, hx], by rw [h2]; exact he⟩

end SL
