import Verif.Lemmas.Safe
/-!
# The connection-closed callback over a history
-/
set_option linter.unusedVariables false

namespace SL

open Co (state modify makeRequest pause closeConn withLock tryExcept ofExcept)

theorem Co.All.mono {P Q : (Gw → Gw) → Prop} (hPQ : ∀ f, P f → Q f) {α : Type} : ∀ {x : Co α}, x.All P → x.All Q
  | .ret _, _ => trivial
  | .throw _, _ => trivial
  | .get k, h => fun g => Co.All.mono hPQ (h g)
  | .upd f k, h => ⟨hPQ f h.1, Co.All.mono hPQ h.2.1, h.2.2⟩
  | .request _ _ _ _ k, h => fun o => Co.All.mono hPQ (h o)
  | .openConn _ k, h => fun o => Co.All.mono hPQ (h o)
  | .sleep k, h => fun o => Co.All.mono hPQ (h o)
  | .close _ _ k, h => fun o => Co.All.mono hPQ (h o)
  | .acquire k, h => fun o => Co.All.mono hPQ (h o)

/-- A change that keeps the address and sets no callback. -/
def Forgetful (f : Gw → Gw) : Prop :=
  ∀ g, (f g).ip = g.ip ∧ ((f g).closedCb = g.closedCb ∨ (f g).closedCb = none) ∧ (f g).closedCalls = g.closedCalls

theorem Chg.forgetful {E : Env} {f : Gw → Gw} (h : Chg E f) : Forgetful f := by
  intro g
  cases h with
  | remember => exact ⟨by simp [Gw.remember], .inr rfl, rfl⟩
  | _ => exact ⟨rfl, .inl rfl, rfl⟩

/-- From `g` to `g'` the callback stays, or it is forgotten because a TCP connection is started or because there is no
address; no callback is called. -/
structure Recalls (g g' : Gw) : Prop where
  ip : g'.ip = g.ip
  calls : g'.closedCalls = g.closedCalls
  cb : ∃ l, g'.log = g.log ++ l ∧ (g'.closedCb = g.closedCb ∨
    g'.closedCb = none ∧ (g.noIp = true ∨ ∃ t h p, (t, Act.opn h p) ∈ l))

theorem noIp_congr {g g' : Gw} (h : g'.ip = g.ip) : g'.noIp = g.noIp := by simp only [Gw.noIp, h]

theorem Recalls.trans {a b c : Gw} (h : Recalls a b) (h' : Recalls b c) : Recalls a c := by
  obtain ⟨l, hl, h1⟩ := h.cb
  obtain ⟨l', hl', h2⟩ := h'.cb
  refine ⟨h'.ip.trans h.ip, h'.calls.trans h.calls, l ++ l', by rw [hl', hl, List.append_assoc], ?_⟩
  rw [noIp_congr h.ip] at h2
  rcases h2 with h2 | ⟨h2, h3⟩
  · rw [h2]
    rcases h1 with h1 | ⟨h1, h4⟩
    · exact .inl h1
    · exact .inr ⟨h1, h4.imp id (fun ⟨t, x, p, hm⟩ => ⟨t, x, p, List.mem_append_left _ hm⟩)⟩
  · exact .inr ⟨h2, h3.imp id (fun ⟨t, x, p, hm⟩ => ⟨t, x, p, List.mem_append_right _ hm⟩)⟩

theorem Recalls.same {g g' : Gw} (h1 : g'.ip = g.ip) (h2 : g'.closedCalls = g.closedCalls) (h3 : ∃ l, g'.log = g.log ++ l)
    (h4 : g'.closedCb = g.closedCb) : Recalls g g' := by
  obtain ⟨l, hl⟩ := h3
  exact ⟨h1, h2, l, hl, .inl h4⟩

theorem Recalls.refl (g : Gw) : Recalls g g := .same rfl rfl ⟨[], by simp⟩ rfl

theorem recalls_note (g : Gw) (t : Nat) (a : Act) : Recalls g (g.note t a) := .same rfl rfl ⟨_, rfl⟩ rfl

theorem recalls_ask (g : Gw) (t c : Nat) (code : Int) (data : Bytes) (r : Int) : Recalls g (g.ask t c code data r).2 :=
  .same rfl rfl ⟨[(t, .ask c code data)], rfl⟩ rfl

theorem recalls_close (g : Gw) (t c : Nat) (force : Bool) : Recalls g (g.startClose t c force).2 :=
  .same rfl rfl ⟨[(t, .cls c force)], rfl⟩ rfl

theorem settle_recalls (t : Nat) : ∀ (co : Co Res) (g : Gw), co.All Forgetful → Recalls g (settle t co g).2
  | .ret a, g, _ => .refl g
  | .throw e, g, _ => .refl g
  | .get k, g, ha => settle_recalls t (k g) g (ha g)
  | .upd f k, g, ha => by
    obtain ⟨hf, hk, hc⟩ := ha
    have h0 := settle_recalls t k (g.apply f) hk
    change Recalls g (settle t k (g.apply f)).2
    obtain ⟨f1, f2, f3⟩ := hf g
    rcases hc with hc | hc
    · refine Recalls.trans ?_ h0
      exact .same f1 f3 ⟨[], by simp [Gw.apply]⟩ (hc g)
    · cases hn : g.noIp with
      | true =>
        refine Recalls.trans (b := g.apply f) ⟨f1, f3, [], by simp [Gw.apply], ?_⟩ h0
        exact f2.imp id (fun h => ⟨h, .inl hn⟩)
      | false =>
        cases k with
        | get j =>
          have hn' : (g.apply f).noIp = false := by rw [noIp_congr (g := g) (g' := g.apply f) f1, hn]
          obtain ⟨r, k', e⟩ := hc (g.apply f) hn'
          have es : settle t (.get j) (g.apply f) = settle t (.openConn r k') (g.apply f) := by rw [← e]; rfl
          rw [es]
          refine ⟨f1, f3, [(t, .opn ((g.apply f).ip.getD "") (g.apply f).port)], rfl, ?_⟩
          exact f2.imp id (fun h => ⟨h, .inr ⟨t, _, _, List.mem_singleton.2 rfl⟩⟩)
        | _ => exact absurd hc (by simp [Co.OpensNext])
  | .request c code data r k, g, ha => by
    simp only [settle]
    split
    · rename_i o _
      exact ((recalls_ask _ _ _ _ _ _).trans (recalls_note _ _ _)).trans (settle_recalls t (k o) _ (ha o))
    · exact recalls_ask _ _ _ _ _ _
  | .openConn r k, g, ha => recalls_note _ _ _
  | .sleep k, g, ha => .refl g
  | .close c force k, g, ha => by
    simp only [settle]
    split
    · exact (recalls_close _ _ _ _).trans (settle_recalls t (k ((g.startClose t c force).2.closeResult c (g.startClose t c force).1)) _ (ha _))
    · exact recalls_close _ _ _ _
  | .acquire k, g, ha => by
    simp only [settle]
    split
    · exact Recalls.trans (b := g.take t) (.same rfl rfl ⟨[], by simp [Gw.take]⟩ rfl) (settle_recalls t (k (.ok ())) (g.take t) (ha _))
    · exact .same rfl rfl ⟨[], by simp [Gw.setWaiters]⟩ rfl

theorem recalls_addListener (g : Gw) (code cb : Nat) : Recalls g (g.addListener code cb).2 := by
  simp only [Gw.addListener]
  split <;> exact .same rfl rfl ⟨[], by simp⟩ rfl

theorem forgetful_subscribe (E : Env) (cb code : Nat) : ((Call.subscribe cb code).co E).All Forgetful := by
  refine Co.all_bind (Co.all_state (fun g => ?_)) (fun _ => trivial)
  split
  · refine Co.all_bind (Co.all_modify (fun g => ?_) (fun g => ?_)) (fun _ => Co.All.mono (P := Chg E) (fun f h => Chg.forgetful h) ?_)
    · simp only [Gw.addListener]
      split <;> exact ⟨rfl, .inl rfl, rfl⟩
    · simp only [Gw.addListener]
      split <;> rfl
    · exact Co.all_bind (Co.all_modify (.register (E := E) _ _)) (fun _ => Co.all_state (fun g =>
          Co.all_bind (Co.all_when (chg_subscribeGateway E)) (fun _ => trivial)))
  · trivial

/-- Every event other than a user's `async_connect` and the loss of an open connection. -/
theorem step_recalls {E : Env} {s : Sys} (h : s.All (Chg E)) (ev : Ev) (hev : ∀ a, ev ≠ .call (.connect a))
    (hl : ∀ c, ev = .net c .lost → s.g.connected c = false) : Recalls s.g (s.step E ev).g := by
  have mem : ∀ {t : Nat} {x : Task}, s.tasks[t]? = some x → x.All (Chg E) := fun hx => h _ (List.mem_of_getElem? hx)
  have go : ∀ (t : Nat) (co : Co Res) (g0 : Gw), co.All (Chg E) → Recalls s.g g0 → Recalls s.g (settle t co g0).2 :=
    fun t co g0 hc hg => hg.trans (settle_recalls t co g0 (hc.mono (fun f => Chg.forgetful)))
  cases ev with
  | call a =>
    by_cases hsub : ∃ cb code, a = .subscribe cb code
    · obtain ⟨cb, code, rfl⟩ := hsub
      exact settle_recalls _ _ _ (forgetful_subscribe E cb code)
    · exact go _ _ _ (chg_call E a (fun x e => hev x (by rw [e])) (fun x y e => hsub ⟨x, y, e⟩)) (.refl _)
  | setMaxRetries n =>
    simp only [Sys.step, Gw.setMaxRetries]
    split <;> exact .same rfl rfl ⟨[], by simp⟩ rfl
  | unsubscribe u =>
    simp only [Sys.step, Gw.unsubscribe, Gw.dropCode]
    repeat' split
    all_goals exact .same rfl rfl ⟨[], by simp [Gw.net, Gw.delListener, Gw.setSet, Gw.schedUnsub]⟩ rfl
  | registerHandler code h' =>
    simp only [Sys.step]
    split
    · exact .same rfl rfl ⟨[], by simp [Gw.net]⟩ rfl
    · exact .refl _
  | removeHandler code =>
    simp only [Sys.step]
    split
    · exact .same rfl rfl ⟨[], by simp [Gw.net]⟩ rfl
    · exact .refl _
  | opened t ok =>
    simp only [Sys.step]
    split
    · rename_i r k hk
      have hk := mem hk
      split
      · exact go t _ _ (Co.all_bindE hk _ (chg_afterOpen E r _)) (.same rfl rfl ⟨[], by simp [Gw.addConn]⟩ rfl)
      · exact go t _ _ (hk _) (.refl _)
    · exact .refl _
  | resume t =>
    simp only [Sys.step]
    split
    · rename_i c r k hk
      have hk := mem hk
      split
      · exact go t _ _ (hk _) (recalls_note _ _ _)
      · exact .refl _
    · rename_i k hk
      exact go t _ _ (mem hk _) (.refl _)
    · rename_i c i k hk
      have hk := mem hk
      split
      · exact go t _ _ (hk _) (.refl _)
      · exact .refl _
    · rename_i k hk
      have hk := mem hk
      split
      · exact go t _ _ (hk _) (.same rfl rfl ⟨[], by simp [Gw.take, Gw.setWaiters]⟩ rfl)
      · exact .refl _
    · exact .refl _
  | cancel t =>
    simp only [Sys.step]
    split
    · rename_i r k hk
      exact go t _ _ (mem hk _) (.refl _)
    · rename_i k hk
      exact go t _ _ (mem hk _) (.refl _)
    · rename_i k hk
      exact go t _ _ (mem hk _) (.same rfl rfl ⟨[], by simp [Gw.setWaiters]⟩ rfl)
    · exact .refl _
  | net c e =>
    simp only [Sys.step]
    split
    · have : s.g.lostCallback c e = s.g := by
        simp only [Gw.lostCallback]
        split
        · rw [hl c rfl]; rfl
        · rfl
      rw [this]
      exact .same rfl rfl ⟨[], by simp [Gw.net]⟩ rfl
    · exact .refl _
  | handle c =>
    simp only [Sys.step, Gw.runHandler, Gw.commonCallback, Gw.commonCallback.notify]
    repeat' split
    all_goals exact .same rfl rfl ⟨[], by simp⟩ rfl
  | ping c =>
    simp only [Sys.step]
    split
    · split
      · exact go _ _ _ (chg_ping E) (.same rfl rfl ⟨[], by simp [Gw.countPing]⟩ rfl)
      · exact .refl _
    · exact .refl _
  | runUnsub =>
    simp only [Sys.step]
    split
    · exact go _ _ _ (chg_unsub E) (.same rfl rfl ⟨[], by simp [Gw.takeUnsub]⟩ rfl)
    · exact .refl _
  | tick now => exact .same rfl rfl ⟨[], by simp [Sys.step, Gw.setNow]⟩ rfl

end SL
