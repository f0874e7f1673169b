import Verif.Lemmas.Val
import Verif.Lemmas.Micro
import Verif.Spec.Gateway
/-!
# What the gateway's coroutines do, piece by piece

The monitor `mon`: every change of the state is one of `Upd`, every request satisfies `AskOk`, and connecting
makes only the requests of a connection sequence.
-/
set_option linter.unusedVariables false

namespace SL

open Co (state modify makeRequest pause closeConn withLock tryExcept ofExcept)

/-! ## Rules for the primitives -/

section rules
variable {M : Mon} {t : Nat} {α β : Type} {Q : List Act → Except PyErr α → Gw → Prop} {h : List Act} {g : Gw}

theorem wp_state {f : Gw → Co α} : (state >>= f).wp M t Q h g ↔ (f g).wp M t Q h g := Iff.rfl

theorem wp_modify {u : Gw → Gw} {f : Unit → Co α} :
    (modify u >>= f).wp M t Q h g ↔ M.G t h g (g.apply u) ∧ (f ()).wp M t Q h (g.apply u) := Iff.rfl

theorem wp_modify' {u : Gw → Gw} {Q : List Act → Except PyErr Unit → Gw → Prop} :
    (modify u).wp M t Q h g ↔ M.G t h g (g.apply u) ∧ Q h (.ok ()) (g.apply u) := Iff.rfl

theorem wp_pure {a : α} : (pure a : Co α).wp M t Q h g ↔ Q h (.ok a) g := Iff.rfl

theorem wp_throw {e : PyErr} : (Co.throw e : Co α).wp M t Q h g ↔ Q h (.error e) g := Iff.rfl

theorem wp_ofExcept {x : Except PyErr α} : (ofExcept x).wp M t Q h g ↔ Q h x g := by cases x <;> rfl

theorem wp_ofExcept_bind {x : Except PyErr β} {f : β → Co α} :
    (ofExcept x >>= f).wp M t Q h g ↔ (match x with | .ok a => (f a).wp M t Q h g | .error e => Q h (.error e) g) := by
  cases x <;> rfl

theorem wp_makeRequest {c : Nat} {code : Int} {data : Bytes} {r : Int} {f : Option Bytes → Co α}
    (hA : M.A t h (.ask c code data) g) (hI : M.I (h ++ [.ask c code data]))
    (hI2 : ∀ o, M.I (h ++ [.ask c code data, .got o]))
    (hok : ∀ g' v, M.R t (g.ask t c code data r).2 g' →
      (f v).wp M t Q (h ++ [.ask c code data, .got (.ok v)]) (g'.note t (.got (.ok v))))
    (herr : ∀ g' e, M.R t (g.ask t c code data r).2 g' →
      Q (h ++ [.ask c code data, .got (.error e)]) (.error e) (g'.note t (.got (.error e)))) :
    (makeRequest c code data r >>= f).wp M t Q h g := by
  refine ⟨hA, hI, fun g' o hr => ⟨hI2 o, ?_⟩⟩
  cases o with
  | ok v => exact hok g' v hr
  | error e => exact herr g' e hr

theorem wp_pause_bind {f : Unit → Co α} (hok : ∀ g', M.R t g g' → (f ()).wp M t Q h g')
    (herr : ∀ g' e, M.R t g g' → Q h (.error e) g') : (pause >>= f).wp M t Q h g := by
  intro g' o hr
  cases o with
  | ok v => exact hok g' hr
  | error e => exact herr g' e hr

theorem wp_close {c : Nat} {force : Bool} {Q : List Act → Except PyErr Unit → Gw → Prop}
    (hA : M.A t h (.cls c force) g) (hI : M.I (h ++ [.cls c force]))
    (hq : ∀ g' o, M.R t (g.startClose t c force).2 g' → Q (h ++ [.cls c force]) o g') :
    (closeConn c force).wp M t Q h g := by
  refine ⟨hA, hI, fun g' o hr => ?_⟩
  cases o with
  | ok v => exact hq g' _ hr
  | error e => exact hq g' _ hr

theorem wp_withLock {x : Co α}
    (hok : ∀ w g' ws, M.R t (g.setWaiters w) g' → g'.lock = none →
      x.wp M t (fun h r g => M.G t h g g.release ∧ Q h r g.release) h ((g'.setWaiters ws).take t))
    (hc : ∀ w g' ws, M.R t (g.setWaiters w) g' → Q h (.error .cancelled) (g'.setWaiters ws)) :
    (withLock x).wp M t Q h g := by
  refine ⟨fun w g' ws hr hl => ?_, fun w g' ws hr => hc w g' ws hr⟩
  refine Co.wp_bindE _ x _ _ (Co.wp_mono ?_ x _ _ (hok w g' ws hr hl))
  intro h r g hq
  refine ⟨hq.1, ?_⟩
  rw [wp_ofExcept]
  exact hq.2

end rules

/-! ## The monitor -/

/-- Actions a connection sequence may take. -/
def Act.conn : Act → Prop
  | .ask _ code _ => code ∈ connectCodes
  | _ => True

/-- How the state changes while task `t` is suspended. -/
structure Rely (U : Prop) (t : Nat) (g g' : Gw) : Prop where
  len : g.conns.length ≤ g'.conns.length
  inv : GInv U g → GInv U g'
  lock : g.lock = some t → g'.lock = some t
  icn : GInv U g → g.lock = some t → g.isClientNow = false → g'.isClientNow = false

theorem Rely.refl (U : Prop) (t : Nat) (g : Gw) : Rely U t g g := ⟨Nat.le_refl _, id, id, fun _ _ h => h⟩

/-- A relation between the task's history and the data that is kept by its own steps: it does not depend on
the task's last actions, and survives the decoding of an answer just received. -/
class XC (E : Env) (X : List Act → Val → Prop) : Prop where
  act : ∀ h a d, X h d → X (h ++ [a]) d
  data : ∀ h d (D : Decoder) code payload b, X h d → D.query = some (code, payload) → JustGot h code payload (some b) → b ≠ [] →
    X h (decodeWith (D.prog E.pyFloat) b d).2

/-- No such relation. -/
def noX : List Act → Val → Prop := fun _ _ => True

instance (E : Env) : XC E noX := ⟨fun _ _ _ _ => trivial, fun _ _ _ _ _ _ _ _ _ _ => trivial⟩

/-- Meanwhile, the task itself does nothing, and the relation `X` is kept. -/
structure RelyA (U : Prop) (X : List Act → Val → Prop) (t : Nat) (g g' : Gw) : Prop where
  rely : Rely U t g g'
  acts : g'.acts t = g.acts t
  x : ∀ h, X h g.data → X h g'.data

theorem Rely.trans {U : Prop} {t : Nat} {a b c : Gw} (h : Rely U t a b) (h' : Rely U t b c) : Rely U t a c :=
  ⟨Nat.le_trans h.len h'.len, fun x => h'.inv (h.inv x), fun x => h'.lock (h.lock x),
    fun i l x => h'.icn (h.inv i) (h.lock l) (h.icn i l x)⟩

theorem RelyA.trans {U : Prop} {X : List Act → Val → Prop} {t : Nat} {a b c : Gw} (h : RelyA U X t a b) (h' : RelyA U X t b c) :
    RelyA U X t a c :=
  ⟨h.rely.trans h'.rely, h'.acts.trans h.acts, fun l hx => h'.x l (h.x l hx)⟩

theorem MicroBut.rely {E : Env} {U : Prop} {t : Nat} {g g' : Gw} (m : MicroBut E U t g g') :
    Rely U t g g' ∧ g'.acts t = g.acts t :=
  ⟨⟨micro_len m.micro, fun h => micro_inv h m.micro, fun h => (microBut_lock m h).1,
    fun i l h => (microBut_lock m l).2 i h⟩, microBut_acts m⟩

/-! ## Assertions -/

/-- `L`: the task holds the lock; `N`: then the gateway is not registered; `h`: the task's history. -/
structure St (U : Prop) (X : List Act → Val → Prop) (t : Nat) (L N : Prop) (h : List Act) (g : Gw) : Prop where
  inv : GInv U g
  lock : L → g.lock = some t
  icn : L → N → g.isClientNow = false
  acts : g.acts t = h
  x : X h g.data

section st
variable {E : Env} {U : Prop} {X : List Act → Val → Prop} [hX : XC E X] {t : Nat} {L N : Prop} {h h' : List Act} {g g' : Gw}

omit hX in
theorem St.rely (s : St U X t L N h g) (r : RelyA U X t g g') : St U X t L N h g' :=
  ⟨r.rely.inv s.inv, fun l => r.rely.lock (s.lock l), fun l n => r.rely.icn s.inv (s.lock l) (s.icn l n), r.acts.trans s.acts,
    r.x _ s.x⟩

omit hX in
theorem St.quiet (s : St U X t L N h g) (q : Quiet g g') (hl : g'.log = g.log) (hd : g'.data = g.data) : St U X t L N h g' :=
  ⟨s.inv.quiet q hl, fun l => q.lock.trans (s.lock l), fun l n => quiet_icn q (s.icn l n), by
    rw [← s.acts]; simp only [Gw.acts, hl], hd ▸ s.x⟩

theorem St.got (E : Env) [hX : XC E X] (s : St U X t L N h g) (o : Except PyErr (Option Bytes)) :
    St U X t L N (h ++ [.got o]) (g.note t (.got o)) :=
  ⟨s.inv.note _ _ (by intros; simp), s.lock, s.icn, by rw [acts_note_same, s.acts], hX.act _ _ _ s.x⟩

theorem St.opn (E : Env) [hX : XC E X] (s : St U X t L N h g) (a : String) (b : Int) :
    St U X t L N (h ++ [.opn a b]) (g.note t (.opn a b)) :=
  ⟨s.inv.note _ _ (by intros; simp), s.lock, s.icn, by rw [acts_note_same, s.acts], hX.act _ _ _ s.x⟩

theorem St.cls (E : Env) [hX : XC E X] (s : St U X t L N h g) (c : Nat) (force : Bool) :
    St U X t L N (h ++ [.cls c force]) (g.startClose t c force).2 :=
  ⟨micro_inv (E := E) s.inv (.cls t c force g), fun l => (quiet_close g t c force).lock.trans (s.lock l),
    fun l n => quiet_icn (quiet_close g t c force) (s.icn l n), by rw [acts_close_same, s.acts], hX.act _ _ _ s.x⟩

theorem St.ask (E : Env) [hX : XC E X] (s : St U X t L N h g) (c : Nat) (code : Int) (data : Bytes) (r : Int)
    (ha : AskOk U t code g) : St U X t L N (h ++ [.ask c code data]) (g.ask t c code data r).2 :=
  ⟨micro_inv (E := E) s.inv (.ask t c code data r g ha), fun l => (quiet_ask g t c code data r).lock.trans (s.lock l),
    fun l n => quiet_icn (quiet_ask g t c code data r) (s.icn l n), by rw [acts_ask_same, s.acts], hX.act _ _ _ s.x⟩

/-- A request made and answered. -/
theorem St.asked (s : St U X t L N h g) (E : Env) [hX : XC E X] {c : Nat} {code : Int}
    {data : Bytes} {r : Int} (ha : AskOk U t code g) (o : Except PyErr (Option Bytes))
    (hr : RelyA U X t (g.ask t c code data r).2 g') :
    St U X t L N (h ++ [.ask c code data, .got o]) (g'.note t (.got o)) := by
  have := ((s.ask E c code data r ha).rely hr).got E o
  simpa using this

omit hX in
theorem St.waiters (s : St U X t L N h g) (w : List Nat) : St U X t L N h (g.setWaiters w) :=
  s.quiet (.same rfl rfl rfl rfl rfl) rfl rfl

end st

/-- The monitor, with a condition `I` on histories to be chosen. -/
def mon (E : Env) (U : Prop) (X : List Act → Val → Prop) (I : List Act → Prop) : Mon where
  R := RelyA U X
  K := fun t h g h' g' o =>
    (∃ l, h' = h ++ l ∧ (∀ a ∈ l, a.conn) ∧ (o = .ok true → CfgAnswered l ∧ Served g')) ∧
    (∀ L N, St U X t L N h g → St U X t L N h' g')
  I := I
  A := fun t _ a g => match a with
    | .ask _ code _ => AskOk U t code g
    | .cls c _ => g.protocol = some c
    | _ => True
  G := Upd E

theorem mon_good (E : Env) (U : Prop) (X : List Act → Val → Prop) (I : List Act → Prop) : (mon E U X I).Good where
  refl := fun t g => ⟨.refl U t g, rfl, fun _ x => x⟩
  trans := fun t a b c h h' => RelyA.trans h h'
  kfail := fun t h g e => ⟨⟨[], by simp, by simp, by simp⟩, fun _ _ s => s⟩
  rk := fun t h a b h' c o hr hk => ⟨hk.1, fun L N s => hk.2 L N (s.rely hr)⟩

/-- A condition on histories that a connection sequence respects, and that implies `I`. -/
structure HC (I H : List Act → Prop) : Prop where
  I : ∀ h, H h → I h
  conn : ∀ h a, H h → a.conn → H (h ++ [a])

theorem HC.conns {I H : List Act → Prop} (hc : HC I H) {h : List Act} (l : List Act) (hh : H h) (hl : ∀ a ∈ l, a.conn) :
    H (h ++ l) := by
  induction l generalizing h with
  | nil => simpa using hh
  | cons a l ih =>
    have := ih (hc.conn h a hh (hl a (by simp))) (fun b hb => hl b (by simp [hb]))
    simpa using this

theorem askOk_other {U : Prop} {t : Nat} {code : Int} {g : Gw} (h1 : code ≠ 12522) (h2 : code ≠ 12524) : AskOk U t code g :=
  fun _ => ⟨fun h => absurd h h1, fun h => absurd h h2⟩

section blocks
variable {E : Env} {U : Prop} {X : List Act → Val → Prop} [hX : XC E X] {I : List Act → Prop} {t : Nat} {L N : Prop} {H H0 H1 H2 : List Act → Prop}

/-- The history of a task that starts from `h0`. -/
def From (h0 : List Act) (h : List Act) : Prop := ∃ l, h = h0 ++ l ∧ ∀ a ∈ l, a.conn

/-- `async_connect`: nothing but a connection sequence. -/
theorem wp_asyncConnect (hc : HC I H) (a : ConnectArgs) {h : List Act} {g : Gw} (s : St U X t L N h g) (hh : H h) :
    (asyncConnect a).wp (mon E U X I) t (fun h' o g' => St U X t L N h' g' ∧ H h' ∧
      (o = .ok true → (g.isConnected = true ∧ h' = h ∧ g' = g) ∨ ∃ l, h' = h ++ l ∧ CfgAnswered l ∧ Served g')) h g := by
  simp only [asyncConnect, Co.wp]
  split
  · rename_i hcon
    exact ⟨s, hh, fun _ => .inl ⟨hcon, rfl, rfl⟩⟩
  · rename_i hn
    have hn : g.isConnected = false := by simpa using hn
    have s1 : St U X t L N h (g.remember a) := s.quiet (.same rfl rfl rfl rfl rfl) rfl rfl
    refine ⟨Upd.remember a hn, ?_⟩
    change Co.wp _ _ _ (if (g.remember a).noIp then _ else _) _ (g.remember a)
    split
    · exact ⟨s1, hh, by simp⟩
    · have hh1 := hc.conn _ (.opn ((g.remember a).ip.getD "") (g.remember a).port) hh trivial
      refine ⟨trivial, hc.I _ hh1, ?_⟩
      intro h' g' o hI hk
      rw [wp_ofExcept]
      obtain ⟨⟨l, rfl, hl, ho⟩, hr⟩ := hk
      refine ⟨hr _ _ (s1.opn E _ _), hc.conns l hh1 hl, fun ht => .inr ?_⟩
      obtain ⟨⟨l1, c, p, o', l2, hle⟩, hsv⟩ := ho ht
      exact ⟨_, by simp only [List.append_assoc]; rfl, ⟨[.opn ((g.remember a).ip.getD "") (g.remember a).port] ++ l1, c, p, o', l2,
        by rw [hle]; simp⟩, hsv⟩

/-- The acknowledged request. -/
theorem wp_ackRequest (hc0 : HC I H0) (hc1 : HC I H1) {code : Int} {payload : Except PyErr Bytes} {c : Nat} {r : Int}
    {h : List Act} {g : Gw} (hst : ∀ h, H0 h → H1 h)
    (hask : ∀ data, payload = .ok data → H1 (h ++ [.ask c code data])) (hA : AskOk U t code g)
    (s : St U X t L N h g) (hh : H0 h) :
    (ackRequest code payload c r).wp (mon E U X I) t (fun h' o g' => St U X t L N h' g' ∧ H1 h' ∧ (L → g'.lock = some t) ∧
      (o = .ok () → ∃ data l, payload = .ok data ∧ h' = h ++ [.ask c code data, .got (.ok (some []))] ∧
        g'.log = l ++ [(t, .got (.ok (some [])))]) ∧
      (∀ e, o = .error e → payload = .error e ∨ ∃ data o', payload = .ok data ∧ h' = h ++ [.ask c code data, .got o'] ∧
        (o' = .error e ∨ e = .slResponse ∧ ∃ v, o' = .ok v ∧ v ≠ some []))) h g := by
  simp only [ackRequest, wp_ofExcept_bind]
  cases payload with
  | error e => exact ⟨s, hst _ hh, s.lock, by simp, by simp⟩
  | ok data =>
    have h1 := hask data rfl
    have h2 : ∀ o, H1 (h ++ [.ask c code data, .got o]) := by
      intro o
      have := hc1.conn _ (.got o) h1 trivial
      simpa using this
    have s1 : ∀ g' o, RelyA U X t (g.ask t c code data r).2 g' → St U X t L N (h ++ [.ask c code data, .got o]) (g'.note t (.got o)) :=
      fun g' o hr => s.asked E hA o hr
    refine wp_makeRequest hA (hc1.I _ h1) (fun o => hc1.I _ (h2 o)) ?_ ?_
    · intro g' v hr
      split
      · rename_i hv
        subst hv
        exact ⟨s1 g' _ hr, h2 _, (s1 g' _ hr).lock, fun _ => ⟨data, _, rfl, rfl, rfl⟩, by simp⟩
      · rename_i hv
        refine ⟨s1 g' _ hr, h2 _, (s1 g' _ hr).lock, by simp, fun e he => .inr ⟨data, _, rfl, rfl, .inr ⟨?_, v, rfl, hv⟩⟩⟩
        cases he
        rfl
    · intro g' e hr
      refine ⟨s1 g' _ hr, h2 _, (s1 g' _ hr).lock, by simp, fun e' he => .inr ⟨data, _, rfl, rfl, .inl ?_⟩⟩
      cases he
      rfl

theorem wp_unsubscribeGateway (hc : HC I H) {h : List Act} {g : Gw} (s : St U X t L N h g) (hh : H h) :
    unsubscribeGateway.wp (mon E U X I) t (fun h' _ g' => St U X t L N h' g' ∧ H h') h g := by
  simp only [unsubscribeGateway, wp_state]
  split
  · refine wp_withLock ?_ ?_
    · intro w g' ws hr hl
      have s1 : St U X t L N h g' := (s.waiters w).rely hr
      have hL : ¬ L := by
        intro l
        have := s1.lock l
        rw [hl] at this
        cases this
      have s2 : St U X t True False h ((g'.setWaiters ws).take t) :=
        ⟨⟨s1.inv.reg, s1.inv.proto, s1.inv.cm⟩, fun _ => rfl, fun _ n => n.elim, s1.acts, s1.x⟩
      have fin : ∀ (h : List Act) (g2 : Gw), St U X t True False h g2 → H h →
          Upd E t h g2 g2.release ∧ St U X t L N h g2.release ∧ H h := by
        intro h g2 s3 h3
        exact ⟨.release (s3.lock trivial), ⟨⟨s3.inv.reg, s3.inv.proto, s3.inv.cm⟩, fun l => absurd l hL, fun l => absurd l hL, s3.acts, s3.x⟩, h3⟩
      rw [wp_state]
      split
      · rename_i c hcl hcm
        have hreg := s2.inv.reg
        rw [wp_modify]
        refine ⟨Upd.unclient rfl hcl, ?_⟩
        change Co.wp _ _ _ _ _ (((g'.setWaiters ws).take t).setClient false)
        have s3 : St U X t True False h (((g'.setWaiters ws).take t).setClient false) :=
          ⟨⟨fun _ hx => (by cases hx), s2.inv.proto, s2.inv.cm⟩, fun _ => rfl, fun _ n => n.elim, s2.acts, s2.x⟩
        rw [wp_modify]
        refine ⟨Upd.disableKeepalive c, ?_⟩
        change Co.wp _ _ _ _ _ ((((g'.setWaiters ws).take t).setClient false).net c .disableKeepalive)
        have s4 := s3.quiet (quiet_net _ c .disableKeepalive) rfl rfl
        rw [wp_modify]
        refine ⟨Upd.unregisterAll c, ?_⟩
        change Co.wp _ _ _ _ _ (((((g'.setWaiters ws).take t).setClient false).net c .disableKeepalive).net c .unregisterAll)
        have s5 := s4.quiet (quiet_net _ c .unregisterAll) rfl rfl
        refine Co.wp_tryExcept _ _ _ _ (Co.wp_mono ?_ _ _ _ (wp_ackRequest (E := E) (H0 := H) (H1 := H) (L := True) (N := False) hc hc
          (fun _ x => x) (fun data _ => hc.conn _ _ hh (by simp [Act.conn, connectCodes])) ?_ s5 hh))
        · intro h r g2 hq
          cases r with
          | ok a => exact fin h g2 hq.1 hq.2.1
          | error e =>
            simp only
            split
            · exact fin h g2 hq.1 hq.2.1
            · exact fin h g2 hq.1 hq.2.1
        · intro u
          refine ⟨fun hx => (by cases hx), fun _ => ⟨rfl, rfl, ?_⟩⟩
          exact hreg u hcl
      · exact fin _ _ s2 hh
    · intro w g' ws hr
      exact ⟨((s.waiters w).rely hr).waiters ws, hh⟩
  · exact ⟨s, hh⟩

theorem wp_asyncDisconnect (hc : HC I H) (force : Bool) {h : List Act} {g : Gw} (s : St U X t L N h g) (hh : H h) :
    (asyncDisconnect force).wp (mon E U X I) t (fun h' o g' => St U X t L N h' g' ∧ H h' ∧
      (o = .ok () → ∃ c, .cls c force ∈ h')) h g := by
  simp only [asyncDisconnect, wp_state]
  refine Co.wp_bind' _ _ _ _ (Co.wp_mono (Q := fun h' _ g' => St U X t L N h' g' ∧ H h') ?_ _ _ _ ?_)
  · intro h r g hq
    cases r with
    | error e => exact ⟨hq.1, hq.2, by simp⟩
    | ok a =>
      simp only [Co.seqPost, wp_state]
      split
      · rename_i c hpc
        have h1 := hc.conn _ (.cls c force) hq.2 trivial
        exact wp_close hpc (hc.I _ h1) (fun g' o hr => ⟨(hq.1.cls E c force).rely hr, h1, fun _ => ⟨c, by simp⟩⟩)
      · exact ⟨hq.1, hq.2, by simp⟩
  · simp only [whenCo]
    split
    · exact wp_unsubscribeGateway hc s hh
    · exact ⟨s, hh⟩

/-- One attempt of a managed request. -/
theorem wp_attemptRequest {α : Type} (hc : HC I H0) {retries : Int} {method : Nat → Int → Co α}
    {Q : List Act → Except PyErr α → Gw → Prop} {h : List Act} {g : Gw} (s : St U X t L N h g) (hh : H0 h)
    (herr : ∀ h e g, St U X t L N h g → H0 h → Q h (.error e) g)
    (hm : ∀ c h g, g.protocol = some c → St U X t L N h g → H0 h → (method c retries).wp (mon E U X I) t Q h g) :
    (attemptRequest retries method).wp (mon E U X I) t Q h g := by
  simp only [attemptRequest]
  refine Co.wp_bind' _ _ _ _ (Co.wp_mono ?_ _ _ _ (wp_asyncConnect hc {} s hh))
  intro h r g hq
  cases r with
  | error e => exact herr _ _ _ hq.1 hq.2.1
  | ok b =>
    simp only [Co.seqPost]
    split
    · rw [wp_state]
      split
      · rename_i c hp
        exact hm c h g hp hq.1 hq.2.1
      · exact herr _ _ _ hq.1 hq.2.1
    · exact herr _ _ _ hq.1 hq.2.1

theorem HC.closed {I H : List Act → Prop} (hc : HC I H) : HC I (fun h => H h ∧ Closed h) := by
  refine ⟨fun h x => hc.I h x.1, fun h a x ha => ⟨hc.conn h a x.1 ha, ?_⟩⟩
  obtain ⟨c, hc⟩ := x.2
  exact ⟨c, by simp [hc]⟩

/-- The managed request: the method is run at most twice, first from `H0`, then from `H1`. -/
theorem wp_connectedRequest {α : Type} (hc0 : HC I H0) (hc1 : HC I H1) (h01 : ∀ h, H0 h → H1 h)
    {method : Nat → Int → Co α} {Q : List Act → Except PyErr α → Gw → Prop} {h : List Act} {g : Gw}
    (s : St U X t L N h g) (hh : H0 h) (herr : ∀ h e g, St U X t L N h g → H1 h → Q h (.error e) g)
    (m0 : ∀ c r h g, g.protocol = some c → St U X t L N h g → H0 h → (method c r).wp (mon E U X I) t
      (fun h o g => match o with | .ok a => Q h (.ok a) g | .error _ => St U X t L N h g ∧ H1 h) h g)
    (m1 : ∀ c r h g, g.protocol = some c → St U X t L N h g → H1 h ∧ Closed h → (method c r).wp (mon E U X I) t Q h g) :
    (connectedRequest method).wp (mon E U X I) t Q h g := by
  simp only [connectedRequest, wp_state]
  refine Co.wp_tryExcept _ _ _ _ (Co.wp_mono (Q := fun h o g =>
    match o with | .ok a => Q h (.ok a) g | .error _ => St U X t L N h g ∧ H1 h) ?_ _ _ _ ?_)
  · intro h r g hq
    cases r with
    | ok a => exact hq
    | error e =>
      simp only at hq ⊢
      split
      · refine Co.wp_bind' _ _ _ _ (Co.wp_mono ?_ _ _ _ (wp_asyncDisconnect hc1 true hq.1 hq.2))
        intro h r g hq
        cases r with
        | error e => exact herr _ _ _ hq.1 hq.2.1
        | ok a =>
          simp only [Co.seqPost]
          refine wp_pause_bind ?_ ?_
          · intro g' hr
            exact wp_attemptRequest hc1.closed (hq.1.rely hr) ⟨hq.2.1, hq.2.2 rfl⟩ (fun h e g s hh => herr h e g s hh.1)
              (fun c h g hp s hh => m1 c _ h g hp s hh)
          · intro g' e hr
            exact herr _ _ _ (hq.1.rely hr) hq.2.1
      · exact herr _ _ _ hq.1 hq.2
  · refine wp_attemptRequest hc0 s hh ?_ (fun c h g hp s hh => m0 c _ h g hp s hh)
    intro h e g s hh
    exact ⟨s, h01 h hh⟩

/-- The getter's request. -/
theorem wp_queryRequest (hc0 : HC I H0) (hc1 : HC I H1) {D : Gw → Decoder} {code : Int} {payload : Except PyErr Bytes} {c : Nat}
    {r : Int} {h : List Act} {g : Gw} (hD : ∀ g, (D g).query = some (code, payload)) (hst : ∀ h, H0 h → H1 h)
    (hask : ∀ data, payload = .ok data → H1 (h ++ [.ask c code data])) (hA : code ≠ 12522 ∧ code ≠ 12524)
    (s : St U X t L N h g) (hh : H0 h) :
    (queryRequest E D code payload c r).wp (mon E U X I) t (fun h' o g' => St U X t L N h' g' ∧ H1 h' ∧
      (∀ b, o = .ok (some b) → b ≠ [] ∧ JustGot h' code payload (some b) ∧
        ∃ g0 d, decodeWith ((D g0).prog E.pyFloat) b d = (.ok (), g'.data)) ∧
      (o = .ok none → ∃ v, JustGot h' code payload v ∧ (v = none ∨ v = some [])) ∧
      (∀ x, o = .ok x → ∃ p v, h' = h ++ [.ask c code p, .got (.ok v)])) h g := by
  simp only [queryRequest, wp_ofExcept_bind]
  cases payload with
  | error e => exact ⟨s, hst _ hh, by simp, by simp, by simp⟩
  | ok data =>
    have h1 := hask data rfl
    have hA' : AskOk U t code g := askOk_other hA.1 hA.2
    have h2 : ∀ o, H1 (h ++ [.ask c code data, .got o]) := by
      intro o
      have := hc1.conn _ (.got o) h1 trivial
      simpa using this
    have s1 : ∀ g' o, RelyA U X t (g.ask t c code data r).2 g' → St U X t L N (h ++ [.ask c code data, .got o]) (g'.note t (.got o)) :=
      fun g' o hr => s.asked E hA' o hr
    refine wp_makeRequest hA' (hc1.I _ h1) (fun o => hc1.I _ (h2 o)) ?_ ?_
    · intro g' v hr
      have s2 := s1 g' (.ok v) hr
      split
      · rename_i b bs
        rw [wp_state]
        generalize g'.note t (.got (.ok (some (b :: bs)))) = g2 at s2
        have hj : JustGot (h ++ [.ask c code data, .got (.ok (some (b :: bs)))]) code (.ok data) (some (b :: bs)) :=
          ⟨h, c, data, rfl, rfl⟩
        refine Co.wp_bind' _ _ _ _ ?_
        simp only [decodeCo, wp_state]
        rw [wp_modify]
        refine ⟨Upd.data (D g2) code (.ok data) (b :: bs) (hD g2) hj (by simp), ?_⟩
        change Co.wp _ _ _ _ _ (g2.setData (decodeWith ((D g2).prog E.pyFloat) (b :: bs) g2.data).2)
        have s3 : St U X t L N (h ++ [.ask c code data, .got (.ok (some (b :: bs)))]) (g2.setData (decodeWith ((D g2).prog E.pyFloat) (b :: bs) g2.data).2) :=
          ⟨s2.inv.quiet (.same rfl rfl rfl rfl rfl) rfl, s2.lock, s2.icn, s2.acts,
            hX.data _ _ _ _ _ _ s2.x (hD g2) hj (by simp)⟩
        rw [wp_ofExcept]
        cases hr : (decodeWith ((D g2).prog E.pyFloat) (b :: bs) g2.data).1 with
        | error e =>
          simp only [Co.seqPost]
          exact ⟨s3, h2 _, by simp, by simp, by simp⟩
        | ok u =>
          simp only [Co.seqPost]
          refine ⟨s3, h2 _, ?_, by simp, fun _ _ => ⟨_, _, rfl⟩⟩
          intro b' hb'
          cases hb'
          refine ⟨by simp, hj, g2, g2.data, ?_⟩
          exact Prod.ext hr rfl
      · rename_i hno
        refine ⟨s2, h2 _, by simp, fun _ => ⟨v, ⟨h, c, data, rfl, rfl⟩, ?_⟩, fun _ _ => ⟨_, _, rfl⟩⟩
        cases v with
        | none => exact .inl rfl
        | some l =>
          cases l with
          | nil => exact .inr rfl
          | cons b bs => exact absurd rfl (hno b bs)
    · intro g' e hr
      exact ⟨s1 g' _ hr, h2 _, by simp, by simp, by simp⟩

/-- `h'` continues `h`. -/
def After (h h' : List Act) : Prop := ∃ l, h' = h ++ l

theorem HC.after {I H : List Act → Prop} (hc : HC I H) (h0 : List Act) : HC I (fun h => H h ∧ After h0 h) := by
  refine ⟨fun h x => hc.I h x.1, fun h a x ha => ⟨hc.conn h a x.1 ha, ?_⟩⟩
  obtain ⟨l, rfl⟩ := x.2
  exact ⟨l ++ [a], by simp⟩

/-- The answer `v` has been decoded and kept. -/
def Kept (E : Env) (D : Gw → Decoder) (key : Path) (v : Option Bytes) (g : Gw) : Prop :=
  ∀ b, v = some b → b ≠ [] → Val.look key g.last = some (.bytes b) ∧
    ∃ g0 d, decodeWith ((D g0).prog E.pyFloat) b d = (.ok (), g.data)

/-- A getter. -/
theorem wp_poll (hc0 : HC I H0) (hc1 : HC I H1) (hc2 : HC I H2) (h01 : ∀ h, H0 h → H1 h) (h12 : ∀ h, H1 h → H2 h)
    {key : Path} {D : Gw → Decoder} {code : Int} {payload : Except PyErr Bytes} {h : List Act} {g : Gw}
    (hD : ∀ g, (D g).query = some (code, payload)) (hkey : ∀ g, (D g).rawPath = key)
    (hask0 : ∀ h c data, H0 h → payload = .ok data → H1 (h ++ [.ask c code data]))
    (hask1 : ∀ h c data, H1 h → Closed h → payload = .ok data → H2 (h ++ [.ask c code data])) (hA : code ≠ 12522 ∧ code ≠ 12524)
    (s : St U X t L N h g) (hh : H0 h) :
    (poll key (queryRequest E D code payload)).wp (mon E U X I) t (fun h' o g' => St U X t L N h' g' ∧ H2 h' ∧ After h h' ∧
      (o = .ok () → ∃ l c p v, h' = h ++ l ++ [.ask c code p, .got (.ok v)] ∧ Kept E D key v g')) h g := by
  simp only [poll]
  refine Co.wp_bind' _ _ _ _ ?_
  refine Co.wp_mono (Q := fun h' o g' => St U X t L N h' g' ∧ (H2 h' ∧ After h h') ∧
      (∀ b, o = .ok (some b) → b ≠ [] ∧ JustGot h' code payload (some b) ∧
        ∃ g0 d, decodeWith ((D g0).prog E.pyFloat) b d = (.ok (), g'.data)) ∧
      (∀ x, o = .ok x → ∃ l c p v, h' = h ++ l ++ [.ask c code p, .got (.ok v)] ∧ (x = none → v = none ∨ v = some []))) ?_ _ _ _ ?_
  · intro h' r g hq
    obtain ⟨s, hh, hb, hn⟩ := hq
    cases r with
    | error e => exact ⟨s, hh.1, hh.2, by simp⟩
    | ok v =>
      cases v with
      | none =>
        refine ⟨s, hh.1, hh.2, fun _ => ?_⟩
        obtain ⟨l, c, p, v, e, hv⟩ := hn _ rfl
        refine ⟨l, c, p, v, e, fun b hb hne => ?_⟩
        rcases hv rfl with hv | hv
        · rw [hv] at hb; cases hb
        · rw [hv] at hb; cases hb; exact absurd rfl hne
      | some b =>
        obtain ⟨hne, hj, g0, d, hd⟩ := hb b rfl
        simp only [Co.seqPost]
        rw [wp_modify']
        refine ⟨?_, s.quiet (.same rfl rfl rfl rfl rfl) rfl rfl, hh.1, hh.2, fun _ => ?_⟩
        rotate_left
        · obtain ⟨l, c, p, v, e, hv⟩ := hn _ rfl
          obtain ⟨h0, c', p', e', _⟩ := hj
          rw [e'] at e
          have := (List.append_inj' e rfl).2
          simp only [List.cons.injEq, Act.got.injEq, Except.ok.injEq, and_true] at this
          refine ⟨l, c, p, v, by rw [e', e], ?_⟩
          intro b' hb' _
          rw [← this.2] at hb'
          cases hb'
          exact ⟨look_put_same _ _ _, g0, d, hd⟩
        have := Upd.last (E := E) (t := t) (g := g) (D g0) code payload b (hD g0) hj hne ⟨d, hd⟩
        rw [hkey] at this
        exact this
  · have more : ∀ {h1 : List Act} (x : List Act), After h h1 → After h (h1 ++ x) := by
      rintro h1 x ⟨l, rfl⟩
      exact ⟨l ++ x, by simp⟩
    refine wp_connectedRequest (hc0.after h) (hc1.after h) (fun h x => ⟨h01 h x.1, x.2⟩) s ⟨hh, [], by simp⟩ ?_ ?_ ?_
    · intro h e g s hh
      exact ⟨s, ⟨h12 _ hh.1, hh.2⟩, by simp, by simp⟩
    · intro c r h1 g _ s hh
      refine Co.wp_mono ?_ _ _ _ (wp_queryRequest (hc0.after h) (hc1.after h) hD (fun h x => ⟨h01 h x.1, x.2⟩)
        (fun data hp => ⟨hask0 h1 c data hh.1 hp, more _ hh.2⟩) hA s hh)
      intro h' o g hq
      cases o with
      | ok a =>
        refine ⟨hq.1, ⟨h12 _ hq.2.1.1, hq.2.1.2⟩, hq.2.2.1, ?_⟩
        intro x hx
        obtain ⟨p, v, e⟩ := hq.2.2.2.2 x hx
        obtain ⟨l, hl⟩ := hh.2
        refine ⟨l, c, p, v, by rw [e, hl], ?_⟩
        rintro rfl
        obtain ⟨v', ⟨h0, c', p', e', _⟩, hv⟩ := hq.2.2.2.1 hx
        rw [e'] at e
        have := (List.append_inj' e rfl).2
        simp only [List.cons.injEq, Act.got.injEq, Except.ok.injEq, and_true] at this
        rw [← this.2]
        exact hv
      | error e => exact ⟨hq.1, hq.2.1⟩
    · intro c r h1 g _ s hh
      refine Co.wp_mono ?_ _ _ _ (wp_queryRequest (hc1.after h) (hc2.after h) hD (fun h x => ⟨h12 h x.1, x.2⟩)
        (fun data hp => ⟨hask1 h1 c data hh.1.1 hh.2 hp, more _ hh.1.2⟩) hA s hh.1)
      intro h' o g hq
      refine ⟨hq.1, hq.2.1, hq.2.2.1, ?_⟩
      intro x hx
      obtain ⟨p, v, e⟩ := hq.2.2.2.2 x hx
      obtain ⟨l, hl⟩ := hh.1.2
      refine ⟨l, c, p, v, by rw [e, hl], ?_⟩
      rintro rfl
      obtain ⟨v', ⟨h0, c', p', e', _⟩, hv⟩ := hq.2.2.2.1 hx
      rw [e'] at e
      have := (List.append_inj' e rfl).2
      simp only [List.cons.injEq, Act.got.injEq, Except.ok.injEq, and_true] at this
      rw [← this.2]
      exact hv

theorem wp_getConfig (hc : HC I H) {h : List Act} {g : Gw} (s : St U X t L N h g) (hh : H h) :
    (getConfig E).wp (mon E U X I) t (fun h' o g' => St U X t L N h' g' ∧ H h' ∧ After h h' ∧
      (o = .ok () → ∃ l c p v, h' = h ++ l ++ [.ask c 12532 p, .got (.ok v)] ∧ Kept E (fun _ => .config) [.s "config"] v g')) h g :=
  wp_poll (D := fun _ => .config) hc hc hc (fun _ x => x) (fun _ x => x) (fun _ => rfl) (fun _ => rfl)
    (fun h c data hh _ => hc.conn _ _ hh (by simp [Act.conn, connectCodes]))
    (fun h c data hh _ _ => hc.conn _ _ hh (by simp [Act.conn, connectCodes])) (by decide) s hh

theorem wp_subscribeGateway (hc : HC I H) {h : List Act} {g : Gw} (s : St U X t L N h g) (hh : H h) :
    subscribeGateway.wp (mon E U X I) t (fun h' o g' => St U X t L N h' g' ∧ H h' ∧
      (o = .ok () → g'.isClient = true ∨ g.attached = false ∧ g' = g)) h g := by
  simp only [subscribeGateway, wp_state]
  split
  · refine wp_withLock ?_ ?_
    · intro w g' ws hr hl
      have s1 : St U X t L N h g' := (s.waiters w).rely hr
      have hL : ¬ L := by
        intro l
        have := s1.lock l
        rw [hl] at this
        cases this
      have s2 : St U X t True False h ((g'.setWaiters ws).take t) :=
        ⟨⟨s1.inv.reg, s1.inv.proto, s1.inv.cm⟩, fun _ => rfl, fun _ n => n.elim, s1.acts, s1.x⟩
      have fin : ∀ {N' : Prop} (h : List Act) (o : Except PyErr Unit) (g2 : Gw), St U X t True N' h g2 → H h →
          (o = .ok () → g2.isClient = true) →
          Upd E t h g2 g2.release ∧ St U X t L N h g2.release ∧ H h ∧
            (o = .ok () → g2.release.isClient = true ∨ g.attached = false ∧ g2.release = g) := by
        intro N' h o g2 s3 h3 hcl
        exact ⟨.release (s3.lock trivial),
          ⟨⟨s3.inv.reg, s3.inv.proto, s3.inv.cm⟩, fun l => absurd l hL, fun l => absurd l hL, s3.acts, s3.x⟩, h3,
          fun ho => .inl (hcl ho)⟩
      rw [wp_state]
      generalize (g'.setWaiters ws).take t = g2 at s2
      split
      · rename_i hcn
        refine fin _ _ _ s2 hh (fun _ => ?_)
        simp only [Gw.isClientNow, Bool.and_eq_true] at hcn
        exact hcn.1
      · rename_i hcn
        have s2 : St U X t True True h g2 := ⟨s2.inv, s2.lock, fun _ _ => by simpa using hcn, s2.acts, s2.x⟩
        refine Co.wp_bind' _ _ _ _ ?_
        refine Co.wp_mono (Q := fun h' o g' => St U X t True True h' g' ∧ H h' ∧ (o = .ok () → ∃ h0 c p l,
          h' = h0 ++ [.ask c 12522 p, .got (.ok (some []))] ∧ g'.log = l ++ [(t, .got (.ok (some [])))] )) ?_ _ _ _ ?_
        · intro h r g hq
          obtain ⟨s, hh, hk⟩ := hq
          cases r with
          | error e => exact fin _ _ _ s hh (by simp)
          | ok a =>
            simp only [Co.seqPost]
            obtain ⟨h0, c, p, l, e1, e2⟩ := hk rfl
            have hu : Upd E t h g (g.setClient true) := Upd.client (s.lock trivial) l h0 c p e1 e2
            have s3 : St U X t True False h (g.setClient true) :=
              ⟨micro_inv (E := E) s.inv (.upd t _ _ (s.acts.symm ▸ hu)), s.lock, fun _ n => n.elim, s.acts, s.x⟩
            rw [wp_modify]
            refine ⟨hu, ?_⟩
            change Co.wp _ _ _ _ _ (g.setClient true)
            rw [wp_state]
            split
            · rename_i c _
              rw [wp_modify']
              exact ⟨Upd.enableKeepalive c, fin _ _ _ (s3.quiet (quiet_net _ c (.enableKeepalive 0)) rfl rfl) hh (fun _ => rfl)⟩
            · exact fin _ _ _ s3 hh (by simp)
        · have hm : ∀ (c : Nat) (r : Int) (h : List Act) (g : Gw), St U X t True True h g → H h →
              (requestAddClient g2.clientId c r).wp (mon E U X I) t (fun h' o g' => St U X t True True h' g' ∧ H h' ∧ (o = .ok () → ∃ h0 c p l,
          h' = h0 ++ [.ask c 12522 p, .got (.ok (some []))] ∧ g'.log = l ++ [(t, .got (.ok (some [])))] )) h g := by
            intro c r h g s hh
            refine Co.wp_mono ?_ _ _ _ (wp_ackRequest (E := E) (H0 := H) (H1 := H) (L := True) (N := True) hc hc
              (fun _ x => x) (fun data _ => hc.conn _ _ hh (by simp [Act.conn, connectCodes])) ?_ s hh)
            · intro h' o g' hq
              refine ⟨hq.1, hq.2.1, fun ho => ?_⟩
              obtain ⟨data, l, _, e1, e2⟩ := hq.2.2.2.1 ho
              exact ⟨_, _, _, l, e1, e2⟩
            · intro u
              exact ⟨fun _ => ⟨s.lock trivial, s.icn trivial trivial⟩, fun hx => (by cases hx)⟩
          refine wp_connectedRequest hc hc (fun _ x => x) s2 hh (fun h e g s hh => ⟨s, hh, by simp⟩) ?_ ?_
          · intro c r h g _ s hh
            refine Co.wp_mono ?_ _ _ _ (hm c r h g s hh)
            intro h o g hq
            cases o with
            | ok a => exact hq
            | error e => exact ⟨hq.1, hq.2.1⟩
          · intro c r h g _ s hh
            exact hm c r h g s hh.1
    · intro w g' ws hr
      exact ⟨((s.waiters w).rely hr).waiters ws, hh, by simp⟩
  · rename_i hat
    exact ⟨s, hh, fun _ => .inr ⟨by simpa using hat, rfl⟩⟩

theorem mem_aget_isSome {V : Type} {x : Nat × V} {l : List (Nat × V)} (h : x ∈ l) : (aget x.1 l).isSome := by
  cases he : aget x.1 l with
  | some v => rfl
  | none =>
    rw [aget_eq_none_iff] at he
    exact absurd (List.mem_map_of_mem (f := (·.1)) h) he

theorem wp_registerAll (c : Nat) {Q : List Act → Except PyErr Unit → Gw → Prop} {h : List Act} :
    ∀ (l : List (Nat × Nat)) (g : Gw), (∀ x ∈ l, (aget x.1 g.listeners).isSome) → St U X t L N h g →
    (∀ g', St U X t L N h g' → g'.listeners = g.listeners → Q h (.ok ()) g') →
    (registerAll c l).wp (mon E U X I) t Q h g
  | [], g, _, s, hq => hq g s rfl
  | (code, i) :: rest, g, hl, s, hq => by
    simp only [registerAll]
    rw [wp_modify]
    refine ⟨Upd.register c code (hl (code, i) (by simp)), ?_⟩
    change Co.wp _ _ _ _ _ (g.net c (.register code (commonHandler code)))
    exact wp_registerAll c rest _ (fun x hx => hl x (by simp [hx])) (s.quiet (quiet_net _ c _) rfl rfl) (fun g' s' e => hq g' s' e)

theorem wp_attach (hc : HC I H) {c : Nat} {h : List Act} {g : Gw} (hlt : c < g.conns.length) (s : St U X t L N h g) (hh : H h) :
    (attach c).wp (mon E U X I) t (fun h' o g' => St U X t L N h' g' ∧ H h' ∧ (o = .ok () → Served g')) h g := by
  simp only [attach]
  rw [wp_modify]
  refine ⟨Upd.attach c hlt, ?_⟩
  change Co.wp _ _ _ _ _ (g.attachTo c)
  have s1 : St U X t L N h (g.attachTo c) :=
    ⟨micro_inv (E := E) s.inv (.upd t _ _ (Upd.attach c hlt)), s.lock, fun _ _ => rfl, s.acts, s.x⟩
  rw [wp_state]
  split
  · rw [wp_modify]
    refine ⟨Upd.unregisterAll c, ?_⟩
    change Co.wp _ _ _ _ _ ((g.attachTo c).net c .unregisterAll)
    have s2 := s1.quiet (quiet_net _ c .unregisterAll) rfl rfl
    refine Co.wp_bind' _ _ _ _ (wp_registerAll c _ _ ?_ s2 ?_)
    · intro x hx
      exact mem_aget_isSome hx
    · intro g' s' _
      refine Co.wp_mono ?_ _ _ _ (wp_subscribeGateway hc s' hh)
      intro h o g2 hq
      refine ⟨hq.1, hq.2.1, fun ho => ?_⟩
      rcases hq.2.2 ho with h1 | ⟨h1, h2⟩
      · exact .inl h1
      · exact .inr (.inr (h2 ▸ h1))
  · rename_i hne
    refine ⟨s1, hh, fun _ => .inr (.inl ?_)⟩
    simpa [Gw.clientNeeded, Gw.attachTo] using hne

theorem wp_gatewayConnect (hc : HC I H) {c : Nat} {r : Int} {h : List Act} {g : Gw} (hlt : c < g.conns.length)
    (s : St U X t L N h g) (hh : H h) :
    (gatewayConnect c r).wp (mon E U X I) t (fun h' o g' => St U X t L N h' g' ∧ H h' ∧ c < g'.conns.length ∧
      ∀ m, o = .ok m → ∃ h0 b, decodeMessageString b = .ok m ∧ h' = h0 ++ [.ask c 14 [], .got (.ok (some b))]) h g := by
  simp only [gatewayConnect]
  rw [wp_modify]
  refine ⟨Upd.raw c _, ?_⟩
  have s1 : St U X t L N h (g.writeRaw c "CONNECTSERVERHOST\r\n\r\n".toUTF8.data.toList) :=
    s.quiet (quiet_modify g c _ (fun x hx => hx)) rfl rfl
  have hlt1 : c < (g.writeRaw c "CONNECTSERVERHOST\r\n\r\n".toUTF8.data.toList).conns.length := by
    simp only [Gw.writeRaw, List.length_modify]
    exact hlt
  change Co.wp _ _ _ _ _ (g.writeRaw c "CONNECTSERVERHOST\r\n\r\n".toUTF8.data.toList)
  generalize g.writeRaw c "CONNECTSERVERHOST\r\n\r\n".toUTF8.data.toList = g1 at s1 hlt1
  refine wp_pause_bind ?_ ?_
  · intro g' hr
    have s2 := s1.rely hr
    have hlt2 := Nat.lt_of_lt_of_le hlt1 hr.rely.len
    rw [wp_state]
    split
    · have hA : AskOk U t 14 g' := askOk_other (by decide) (by decide)
      have h1 : H (h ++ [.ask c 14 []]) := hc.conn _ _ hh (by simp [Act.conn, connectCodes])
      have h2 : ∀ o, H (h ++ [.ask c 14 [], .got o]) := by
        intro o
        have := hc.conn _ (.got o) h1 trivial
        simpa using this
      have hlt3 : ∀ g2 o, RelyA U X t (g'.ask t c 14 [] r).2 g2 → c < (g2.note t (.got o)).conns.length := by
        intro g2 o hr2
        have e1 := hr2.rely.len
        rw [(quiet_ask g' t c 14 [] r).len] at e1
        exact Nat.lt_of_lt_of_le hlt2 e1
      refine wp_makeRequest hA (hc.I _ h1) (fun o => hc.I _ (h2 o)) ?_ ?_
      · intro g2 v hr2
        split
        · rw [wp_ofExcept]
          rename_i b
          exact ⟨s2.asked E hA _ hr2, h2 _, hlt3 _ _ hr2, fun m hm => ⟨h, b, hm, rfl⟩⟩
        · exact ⟨s2.asked E hA _ hr2, h2 _, hlt3 _ _ hr2, fun m hm => (by cases hm)⟩
      · intro g2 e hr2
        exact ⟨s2.asked E hA _ hr2, h2 _, hlt3 _ _ hr2, fun m hm => (by cases hm)⟩
    · exact ⟨s2, hh, hlt2, fun m hm => (by cases hm)⟩
  · intro g' e hr
    exact ⟨s1.rely hr, hh, Nat.lt_of_lt_of_le hlt1 hr.rely.len, fun m hm => (by cases hm)⟩

theorem wp_connectToGateway (hc : HC I H) {c : Nat} {r : Int} {h : List Act} {g : Gw} (hlt : c < g.conns.length)
    (s : St U X t L N h g) (hh : H h) :
    (connectToGateway c r).wp (mon E U X I) t (fun h' o g' => St U X t L N h' g' ∧ H h' ∧ c < g'.conns.length ∧
      ∀ m, o = .ok (some m) → LoggedIn h' c m) h g := by
  simp only [connectToGateway]
  refine Co.wp_bind' _ _ _ _ (Co.wp_mono ?_ _ _ _ (wp_gatewayConnect hc hlt s hh))
  intro h o g hq
  obtain ⟨s, hh, hlt, hm⟩ := hq
  cases o with
  | error e => exact ⟨s, hh, hlt, fun m hm => (by cases hm)⟩
  | ok mac =>
    obtain ⟨h0, b, hb, hl⟩ := hm mac rfl
    simp only [Co.seqPost, wp_ofExcept_bind]
    split
    · rename_i msg hmsg
      have hA : AskOk U t 27 g := askOk_other (by decide) (by decide)
      have h1 : H (h ++ [.ask c 27 msg]) := hc.conn _ _ hh (by simp [Act.conn, connectCodes])
      have h2 : ∀ o, H (h ++ [.ask c 27 msg, .got o]) := by
        intro o
        have := hc.conn _ (.got o) h1 trivial
        simpa using this
      have hlt3 : ∀ g2 o, RelyA U X t (g.ask t c 27 msg r).2 g2 → c < (g2.note t (.got o)).conns.length := by
        intro g2 o hr2
        have e1 := hr2.rely.len
        rw [(quiet_ask g t c 27 msg r).len] at e1
        exact Nat.lt_of_lt_of_le hlt e1
      refine wp_makeRequest hA (hc.I _ h1) (fun o => hc.I _ (h2 o)) ?_ ?_
      · intro g2 v hr2
        split
        · rename_i b'
          refine ⟨s.asked E hA _ hr2, h2 _, hlt3 _ _ hr2, fun m hm => ?_⟩
          cases hm
          exact ⟨h0, b, b', msg, hmsg, hb, by rw [hl]; simp⟩
        · exact ⟨s.asked E hA _ hr2, h2 _, hlt3 _ _ hr2, fun m hm => (by cases hm)⟩
      · intro g2 e hr2
        exact ⟨s.asked E hA _ hr2, h2 _, hlt3 _ _ hr2, fun m hm => (by cases hm)⟩
    · exact ⟨s, hh, hlt, fun m hm => (by cases hm)⟩

theorem wp_loadVersion (hc : HC I H) {c : Nat} {h : List Act} {g : Gw} (s : St U X t L N h g) (hh : H h) :
    (loadVersion E c).wp (mon E U X I) t (fun h' _ g' => St U X t L N h' g' ∧ H h') h g := by
  simp only [loadVersion, wp_state]
  refine Co.wp_bind' _ _ _ _ (Co.wp_mono ?_ _ _ _ (wp_queryRequest (E := E) (H0 := H) (H1 := H) (D := fun _ => .version) hc hc
    (fun _ => rfl) (fun _ x => x) (fun data _ => hc.conn _ _ hh (by simp [Act.conn, connectCodes])) (by decide) s hh))
  intro h o g hq
  obtain ⟨s, hh, hb, hn, _⟩ := hq
  cases o with
  | error e => exact ⟨s, hh⟩
  | ok v =>
    simp only [Co.seqPost]
    rw [wp_modify']
    cases v with
    | none =>
      obtain ⟨v, hj, hv⟩ := hn rfl
      exact ⟨Upd.noVersion v hj hv, s.quiet (.same rfl rfl rfl rfl rfl) rfl rfl, hh⟩
    | some b =>
      obtain ⟨hne, hj, g0, d, hd⟩ := hb b rfl
      exact ⟨Upd.last .version 8120 (.ok []) b rfl hj hne ⟨d, hd⟩, s.quiet (.same rfl rfl rfl rfl rfl) rfl rfl, hh⟩

/-- The rest of `async_connect`. -/
theorem wp_afterOpen (hc : HC I H) {c : Nat} {r : Int} {h : List Act} {g : Gw} (hlt : c < g.conns.length)
    (s : St U X t L N h g) (hh : H h) :
    (afterOpen E r c).wp (mon E U X I) t (fun h' o g' => St U X t L N h' g' ∧ H h' ∧
      (∃ l, h' = h ++ l ∧ (∀ a ∈ l, a.conn) ∧ (o = .ok true → CfgAnswered l ∧ Served g'))) h g := by
  -- the history since the start of the attempt
  have hcF : HC I (fun h' => H h' ∧ From h h') := by
    refine ⟨fun h' x => hc.I _ x.1, fun h' a x ha => ⟨hc.conn _ a x.1 ha, ?_⟩⟩
    obtain ⟨l, rfl, hl⟩ := x.2
    refine ⟨l ++ [a], by simp, ?_⟩
    intro b hb
    rcases List.mem_append.1 hb with hb | hb
    · exact hl b hb
    · simp only [List.mem_singleton] at hb; subst hb; exact ha
  have hh0 : H h ∧ From h h := ⟨hh, [], by simp, by simp⟩
  have fin : ∀ (h' : List Act) (o : Except PyErr Bool) (g' : Gw), St U X t L N h' g' → H h' ∧ From h h' → o ≠ .ok true →
      St U X t L N h' g' ∧ H h' ∧ (∃ l, h' = h ++ l ∧ (∀ a ∈ l, a.conn) ∧ (o = .ok true → CfgAnswered l ∧ Served g')) := by
    intro h' o g' s hx ho
    obtain ⟨l, e, hl⟩ := hx.2
    exact ⟨s, hx.1, l, e, hl, fun x => absurd x ho⟩
  simp only [afterOpen]
  refine Co.wp_bind' _ _ _ _ (Co.wp_mono ?_ _ _ _ (wp_connectToGateway hcF hlt s hh0))
  intro h1 o g hq
  obtain ⟨s, hh, hlt, hmac⟩ := hq
  cases o with
  | error e => exact fin _ _ _ s hh (by simp)
  | ok mac =>
    simp only [Co.seqPost]
    split
    · exact fin _ _ _ s hh (by simp)
    · rename_i m
      rw [wp_modify]
      refine ⟨Upd.proto c m hlt (hmac m rfl), ?_⟩
      change Co.wp _ _ _ _ _ (g.setProto c m)
      have s1 : St U X t L N h1 (g.setProto c m) :=
        ⟨micro_inv (E := E) s.inv (.upd t _ _ (Upd.proto c m hlt (s.acts ▸ hmac m rfl))), s.lock, s.icn, s.acts, s.x⟩
      refine Co.wp_bind' _ _ _ _ (Co.wp_mono ?_ _ _ _ (wp_loadVersion hcF s1 hh))
      intro h2 o g hq
      obtain ⟨s, hh⟩ := hq
      cases o with
      | error e => exact fin _ _ _ s hh (by simp)
      | ok u =>
        simp only [Co.seqPost, wp_state]
        split
        · refine Co.wp_bind' _ _ _ _ (Co.wp_mono ?_ _ _ _ (wp_getConfig hcF s hh))
          intro h3 o g hq
          obtain ⟨s, hh3, _, hcfg⟩ := hq
          cases o with
          | error e => exact fin _ _ _ s hh3 (by simp)
          | ok u =>
            simp only [Co.seqPost, wp_state]
            split
            · rename_i c' hp
              obtain ⟨l, c1, p1, v, e1, _⟩ := hcfg rfl
              have hcA : HC I (fun h' => (H h' ∧ From h h') ∧ After h3 h') := hcF.after h3
              refine Co.wp_bind' _ _ _ _ (Co.wp_mono ?_ _ _ _ (wp_attach hcA (s.inv.proto c' hp) s ⟨hh3, [], by simp⟩))
              intro h4 o g hq
              cases o with
              | error e => exact fin _ _ _ hq.1 hq.2.1.1 (by simp)
              | ok u =>
                refine ⟨hq.1, hq.2.1.1.1, ?_⟩
                obtain ⟨l4, e4, hl4⟩ := hq.2.1.1.2
                obtain ⟨l3, e3⟩ := hq.2.1.2
                obtain ⟨l2, e2, hl2⟩ := hh.2
                refine ⟨l4, e4, hl4, fun _ => ⟨?_, hq.2.2 rfl⟩⟩
                refine ⟨l2 ++ l, c1, p1, v, l3, ?_⟩
                rw [e4, e1, e2] at e3
                simp only [List.append_assoc] at e3 ⊢
                exact List.append_cancel_left e3
            · exact fin _ _ _ s hh3 (by simp)
        · exact fin _ _ _ s hh (by simp)

end blocks

end SL
