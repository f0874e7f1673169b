import Verif.Props.ProvProps
import Verif.Props.ExportProps
import Verif.Props.LookupProps
import Verif.Props.StatusProps
import Verif.Lemmas.Subs
import Verif.Lemmas.Valued
import Verif.Spec.Groups
import Verif.Spec.Handshake
set_option linter.unusedVariables false
/-!
# C84: whom the gateway is connected to.  C85: the data only grows.
-/
namespace SL

/-! ## C84 -/

/-- What is kept by every change. -/
structure Identified (g : Gw) : Prop where
  none : g.protocol = none → g.mac = ""
  some : ∀ c, g.protocol = some c → ∃ b b', AnsweredOn g c 14 [] b ∧ decodeMessageString b = .ok g.mac ∧
    AnsweredOn g c 27 loginBytes b'

theorem identity_cases {E : Env} {U : Prop} {g g' : Gw} (m : Micro E U g g') : (g'.protocol = g.protocol ∧ g'.mac = g.mac) ∨
    (∃ (t c : Nat) (mac : String), g'.protocol = some c ∧ g'.mac = mac ∧ LoggedIn (g.acts t) c mac) := by
  cases m with
  | upd t _ _ hu =>
    cases hu with
    | proto c mac hc hm => exact .inr ⟨t, c, mac, rfl, rfl, hm⟩
    | listen cb code =>
      left
      simp only [Gw.addListener]
      split <;> exact ⟨rfl, rfl⟩
    | _ => exact .inl ⟨rfl, rfl⟩
  | env _ _ he =>
    left
    cases he with
    | handle c =>
      simp only [Gw.runHandler, Gw.commonCallback, Gw.commonCallback.notify]
      repeat' (first | exact ⟨rfl, rfl⟩ | split)
    | setMaxRetries n =>
      simp only [Gw.setMaxRetries]
      split <;> exact ⟨rfl, rfl⟩
    | unsubscribe u =>
      simp only [Gw.unsubscribe, Gw.dropCode]
      repeat' (first | exact ⟨rfl, rfl⟩ | split)
    | net c e =>
      simp only [Gw.lostCallback]
      repeat' (first | exact ⟨rfl, rfl⟩ | split)
    | _ => exact ⟨rfl, rfl⟩
  | _ => exact .inl ⟨rfl, rfl⟩

theorem Identified.step {E : Env} {g g' : Gw} (h : Identified g) (hn : Heard g) (m : MicroA E False g g') : Identified g' := by
  have hg := micro_grows m.micro
  rcases identity_cases m.micro with ⟨e1, e2⟩ | ⟨t, c, mac, e1, e2, h0, b, b', msg, h1, h2, h3⟩
  · refine ⟨fun hp => by rw [e2]; exact h.none (e1 ▸ hp), fun c hc => ?_⟩
    obtain ⟨b, b', k1, k2, k3⟩ := h.some c (e1 ▸ hc)
    exact ⟨b, b', k1.grows hg, by rw [e2]; exact k2, k3.grows hg⟩
  · refine ⟨fun hp => (by rw [e1] at hp; cases hp), fun c' hc => ?_⟩
    rw [e1] at hc
    cases hc
    rw [login_bytes] at h1
    cases h1
    refine ⟨b, b', (hn t h0 c 14 [] b _ h3).grows hg, by rw [e2]; exact h2, (hn t (h0 ++ [.ask c 14 [], .got (.ok (.some b))]) c 27 loginBytes b' [] ?_).grows hg⟩
    rw [h3]
    simp

section
variable (E : Env) (clientId maxRetries : Int)

theorem reach_identified (es : List Ev) : Identified (after E clientId maxRetries es).g :=
  (reach_asked (I := fun g => Genuine E g ∧ Identified g) ⟨⟨(fun c x hx => by cases hx), (fun t h0 c code p b l h => by simp [Sys.init, Gw.acts] at h), .init⟩,
      fun _ => rfl, fun c hc => by cases hc⟩
    (fun g g' h m => ⟨h.1.step m, h.2.step h.1.sound m⟩) es).2

/-- **C84** The gateway uses a connection only if the adapter answered the challenge and the login there, and `gateway.mac` is
the text it answered to that challenge. -/
theorem C84_identity (es : List Ev) (c : Nat) (hc : (after E clientId maxRetries es).g.protocol = some c) :
    ∃ b b', AnsweredOn (after E clientId maxRetries es).g c 14 [] b ∧
      decodeMessageString b = .ok (after E clientId maxRetries es).g.mac ∧
      AnsweredOn (after E clientId maxRetries es).g c 27 loginBytes b' :=
  (reach_identified E clientId maxRetries es).some c hc

/-- **C84** In particular whenever `gateway.is_connected` says so. -/
theorem C84_connected (es : List Ev) (h : (after E clientId maxRetries es).g.isConnected = true) :
    ∃ c b b', AnsweredOn (after E clientId maxRetries es).g c 14 [] b ∧
      decodeMessageString b = .ok (after E clientId maxRetries es).g.mac ∧
      AnsweredOn (after E clientId maxRetries es).g c 27 loginBytes b' ∧ (after E clientId maxRetries es).g.connected c = true := by
  rw [Gw.isConnected] at h
  split at h
  · rename_i c hc
    obtain ⟨b, b', h1, h2, h3⟩ := C84_identity E clientId maxRetries es c hc
    exact ⟨c, b, b', h1, h2, h3, h⟩
  · cases h

/-- **C84** Before the first login was answered, `gateway.mac` is empty and the gateway is not connected. -/
theorem C84_before (es : List Ev)
    (h : ∀ c b, ¬ AnsweredOn (after E clientId maxRetries es).g c 27 loginBytes b) :
    (after E clientId maxRetries es).g.mac = "" ∧ (after E clientId maxRetries es).g.isConnected = false := by
  have hp : (after E clientId maxRetries es).g.protocol = none := by
    cases hp : (after E clientId maxRetries es).g.protocol with
    | none => rfl
    | some c =>
      obtain ⟨b, b', -, -, h3⟩ := C84_identity E clientId maxRetries es c hp
      exact absurd h3 (h c b')
  refine ⟨(reach_identified E clientId maxRetries es).none hp, ?_⟩
  rw [Gw.isConnected, hp]

theorem C84_witness : (after sampleEnv 1 3 connectEvs).g.protocol = some 0 ∧ (after sampleEnv 1 3 connectEvs).g.isConnected = true ∧
    (after sampleEnv 1 3 connectEvs).g.mac = "00-C0-33-00-00-01" := by decide +kernel

/-! ## C85 -/

theorem group_node {q : Path} (h : Group q) : isNode q = true := by
  cases h with
  | device d h =>
    simp only [List.mem_cons, List.not_mem_nil, or_false] at h
    rcases h with rfl | rfl | rfl | rfl | rfl | rfl | rfl <;> rfl
  | controller k h =>
    simp only [List.mem_cons, List.not_mem_nil, or_false] at h
    rcases h with rfl | rfl | rfl | rfl | rfl <;> rfl
  | intellichem k h =>
    simp only [List.mem_cons, List.not_mem_nil, or_false] at h
    rcases h with rfl | rfl | rfl | rfl | rfl | rfl <;> rfl
  | scg k h =>
    simp only [List.mem_cons, List.not_mem_nil, or_false] at h
    rcases h with rfl | rfl <;> rfl
  | _ => rfl

theorem tree_look {p : Path} : ∀ {s : Sch} {d v : Val}, TreeOK s d → d.look p = some v → v ≠ .null := by
  induction p with
  | nil =>
    intro s d v hd h hv
    simp only [Val.look, Option.some.injEq] at h
    subst h hv
    exact hd
  | cons k p ih =>
    intro s d v hd h
    cases d with
    | dict kv =>
      simp only [Val.look, Option.bind_eq_some_iff] at h
      obtain ⟨w, hw, h⟩ := h
      have := itemsOK_iff.1 hd.2 _ (mem_of_aget hw)
      have := this.2
      split at this
      · intro hv
        cases p with
        | nil =>
          simp only [Val.look, Option.some.injEq] at h
          subst h
          subst hv
          cases this
        | cons k' p =>
          cases w with
          | dict kv => cases this
          | _ => simp [Val.look] at h
      · exact ih this h
    | _ => simp [Val.look] at h

/-- On the tree of a gateway, `get_data` of a path under a group is a lookup in dicts. -/
theorem getData_dicts {p : Path} : ∀ {d v : Val}, (∀ r i v, r ++ [Key.i i] <+: p → d.look r = some v → v.isDict = true) → v ≠ .null →
    (getData false p d = .ok v → d.look p = some v) := by
  induction p with
  | nil =>
    intro d v _ _ h
    simp only [getData, Except.ok.injEq] at h
    simp [Val.look, h]
  | cons k p ih =>
    intro d v hd hv h
    have hlist : ∀ l, d = .list l → ∀ i, k ≠ .i i := by
      rintro l rfl i rfl
      have := hd [] i _ (by simp) rfl
      simp [Val.isDict] at this
    have other : getNext d k = .null → Val.look (k :: p) d = some v := by
      intro e
      simp only [getData] at h
      rw [if_pos e] at h
      simp only [Bool.false_eq_true, if_false, Except.ok.injEq] at h
      exact absurd h.symm hv
    cases d with
    | dict kv =>
      simp only [getData] at h
      by_cases hn : getNext (.dict kv) k = .null
      · rw [if_pos hn] at h
        simp only [Bool.false_eq_true, if_false, Except.ok.injEq] at h
        exact absurd h.symm hv
      · rw [if_neg hn] at h
        cases hw : aget k kv with
        | none => exact absurd (by simp [getNext, hw]) hn
        | some w =>
          rw [show getNext (.dict kv) k = w by simp [getNext, hw]] at h
          simp only [Val.look, hw, Option.bind_some]
          refine ih (fun r i v' hr hl => ?_) hv h
          exact hd (k :: r) i v' (by simpa using hr) (by simp [Val.look, hw, hl])
    | list l =>
      cases k with
      | i n => exact absurd rfl (hlist l rfl n)
      | s x => exact other rfl
    | _ => exact other (by cases k <;> rfl)

theorem look_getData {p : Path} : ∀ {d v : Val}, (∀ r v, r <+: p → d.look r = some v → v ≠ .null) → d.look p = some v →
    getData false p d = .ok v := by
  induction p with
  | nil =>
    intro d v _ h
    simp only [Val.look, Option.some.injEq] at h
    simp [getData, h]
  | cons k p ih =>
    intro d v hd h
    cases d with
    | dict kv =>
      simp only [Val.look, Option.bind_eq_some_iff] at h
      obtain ⟨w, hw, h⟩ := h
      have : w ≠ .null := hd [k] w (by simp) (by simp [Val.look, hw])
      have e : getNext (.dict kv) k = w := by simp [getNext, hw]
      rw [getData, if_neg (by rw [e]; exact this), e]
      exact ih (fun r v' hr hl => hd (k :: r) v' (by simpa using hr) (by simp [Val.look, hw, hl])) h
    | _ => simp [Val.look] at h

theorem prefix_snoc {α : Type} {r q : List α} {a k : α} (h : r ++ [a] <+: q ++ [k]) : r <+: q := by
  obtain ⟨t, ht⟩ := h
  rcases List.eq_nil_or_concat t with rfl | ⟨t', b, rfl⟩
  · rw [List.append_nil] at ht
    exact ⟨[], by rw [List.append_nil]; exact (List.append_inj' ht rfl).1⟩
  · rw [List.concat_eq_append, ← List.append_assoc] at ht
    exact ⟨a :: t', by rw [← (List.append_inj' ht rfl).1]; simp⟩

theorem allOps_and {α : Type} {P Q : Op → Prop} {p : Prog α} (hp : AllOps P p) (hq : AllOps Q p) : AllOps (fun op => P op ∧ Q op) p := by
  induction p with
  | pure a => trivial
  | raise e => trivial
  | num f k ih => exact fun x => ih x (hp x) (hq x)
  | str k ih => exact fun x => ih x (hp x) (hq x)
  | arr k ih => exact ⟨⟨hp.1, hq.1⟩, fun x => ih x (hp.2 x) (hq.2 x)⟩
  | time k ih => exact fun x => ih x (hp x) (hq x)
  | msgStr k ih => exact ⟨⟨hp.1, hq.1⟩, fun x => ih x (hp.2 x) (hq.2 x)⟩
  | off k ih => exact fun x => ih x (hp x) (hq x)
  | set p x k ih => exact ⟨⟨hp.1, hq.1⟩, ih hp.2 hq.2⟩
  | setdef p x k ih => exact ⟨⟨hp.1, hq.1⟩, ih hp.2 hq.2⟩
  | get p k ih => exact ⟨⟨hp.1, hq.1⟩, fun x => ih x (hp.2 x) (hq.2 x)⟩

/-- The value of a reading stays. -/
theorem reading_stays (f : String → Except PyErr Rat) (D : Decoder) (m : Bytes) (d : Val) (q : Path) (hr : isReading q = true)
    (hq : isNode q.dropLast = true) (h : (Val.look (q ++ [.s "value"]) d).isSome) :
    (Val.look (q ++ [.s "value"]) (decodeWith (D.prog f) m d).2).isSome := by
  have hpre : ∀ p : Path, p <+: q → p ≠ q → isNode p = true := by
    intro p hp hne
    refine isNode_prefix hq ?_
    obtain ⟨r, rfl⟩ := hp
    have : r ≠ [] := by rintro rfl; simp at hne
    rw [List.dropLast_append_of_ne_nil this]
    exact List.prefix_append _ _
  have hput : ∀ p x (d : Val), (p = q → hasValue x = true) → isNode p = false → (Val.look (q ++ [.s "value"]) d).isSome →
      (Val.look (q ++ [.s "value"]) (Val.put p x d)).isSome := by
    intro p x d hx hn h
    by_cases h1 : p <+: q ++ [.s "value"]
    · rcases List.prefix_concat_iff.1 h1 with h2 | h2
      · subst h2; rw [look_put_same]; rfl
      · by_cases h3 : p = q
        · rw [h3, look_append, look_put_same, Option.bind_some]
          have := hx h3
          cases x with
          | dict kv =>
            simp only [hasValue] at this
            obtain ⟨v, hv⟩ := Option.isSome_iff_exists.1 this
            simp [Val.look, hv]
          | _ => cases this
        · rw [hpre p h2 h3] at hn; cases hn
    · by_cases h2 : q ++ [.s "value"] <+: p
      · obtain ⟨kv, hkv⟩ := look_put_above x d h2 (by rintro rfl; exact h1 h2)
        rw [hkv]; rfl
      · rw [look_put_other x d h1 h2]; exact h
  refine run_rel (R := fun a b => (Val.look (q ++ [.s "value"]) a).isSome → (Val.look (q ++ [.s "value"]) b).isSome) (fun _ h => h)
    (fun a b c h1 h2 h => h2 (h1 h)) ?_ ?_ (allOps_and (D.fits f) (D.valued f)) m 0 d h
  · rintro p x d ⟨hop, hv⟩ h
    refine hput p x d ?_ ?_ h
    · rintro rfl
      simpa [opV, hr] using hv
    · simp only [opOK, Bool.and_eq_true, Bool.not_eq_true', defaulted, Bool.or_eq_false_iff] at hop
      exact hop.2.2.1
  · intro p x d _ h
    cases hp : Val.look p d with
    | some y => rw [putNew_of_some hp]; exact h
    | none =>
      rw [putNew_of_none hp]
      by_cases h1 : p <+: q ++ [.s "value"]
      · obtain ⟨y, hy⟩ := Option.isSome_iff_exists.1 h
        obtain ⟨z, hz⟩ := look_prefix_some h1 hy
        rw [hp] at hz; simp at hz
      · by_cases h2 : q ++ [.s "value"] <+: p
        · obtain ⟨kv, hkv⟩ := look_put_above x d h2 (by rintro rfl; exact h1 h2)
          rw [hkv]; rfl
        · rw [look_put_other x d h1 h2]; exact h

/-- A reading is directly under a group, and it is set with its value unless it is a group itself. -/
theorem reading_cases {q : Path} (h : Reading q) : isNode q.dropLast = true ∧ (isNode q = true ∨ isReading q = true) := by
  cases h with
  | circuit i => exact ⟨rfl, .inl rfl⟩
  | pumpState i => exact ⟨rfl, .inl rfl⟩
  | celsius => exact ⟨rfl, .inr rfl⟩
  | model => exact ⟨rfl, .inr rfl⟩
  | autoDst => exact ⟨rfl, .inr rfl⟩
  | superChlorinate => exact ⟨rfl, .inr rfl⟩
  | chemFirmware => exact ⟨rfl, .inr rfl⟩
  | version => exact ⟨rfl, .inr rfl⟩
  | _ =>
    rename_i h
    simp only [List.mem_cons, List.not_mem_nil, or_false] at h
    refine ⟨rfl, .inr ?_⟩
    repeat' (rcases h with rfl | h)
    all_goals first | rfl | (subst h; rfl)

/-- How the data at one moment and at a later one are related. -/
theorem later_data {R : Val → Val → Prop} (hr : ∀ d, R d d) (ht : ∀ a b c, R a b → R b c → R a c)
    (hs : ∀ D b d, R d (decodeWith (Decoder.prog E.pyFloat D) b d).2) (es es2 : List Ev) :
    R (after E clientId maxRetries es).g.data (after E clientId maxRetries (es ++ es2)).g.data := by
  refine snoc_ind (P := fun l => R (after E clientId maxRetries es).g.data (after E clientId maxRetries (es ++ l)).g.data)
    (by simpa using hr _) ?_ es2
  intro l ev ih
  show R _ (after E clientId maxRetries (es ++ (l ++ [ev]))).g.data
  rw [← List.append_assoc, after_snoc]
  have := (step_microA ((SysOk.init E False clientId maxRetries).run _ (fun u => u.elim)) (reach_waiting E clientId maxRetries (es ++ l)) ev
    (fun u => u.elim)).inv (I := fun g => R (after E clientId maxRetries es).g.data g.data) ?_ ih
  · exact this
  · intro g g' h m
    rcases data_cases m.micro with e | ⟨t, D, code, payload, b, -, -, e⟩ | ⟨c, x, k, msg, D, -, -, -, -, e⟩
    · rw [e]; exact h
    · rw [e]; exact ht _ _ _ h (hs D b _)
    · rw [e]; exact ht _ _ _ h (hs D msg _)

/-- **C85** What has once been in the data under a group stays there: if `get_data(*q, k)` was not None at some moment, it
is not None at any later moment, whatever happens in between. -/
theorem C85_grows (es es2 : List Ev) (q : Path) (hq : Group q) (k : Key) (v : Val) (hv : v ≠ .null)
    (h : getData false (q ++ [k]) (after E clientId maxRetries es).g.data = .ok v) :
    ∃ v', v' ≠ .null ∧ getData false (q ++ [k]) (after E clientId maxRetries (es ++ es2)).g.data = .ok v' := by
  have hn := group_node hq
  have hr := C83_reachable E clientId maxRetries es
  have hr2 := C83_reachable E clientId maxRetries (es ++ es2)
  have hl : (after E clientId maxRetries es).g.data.look (q ++ [k]) = some v := by
    refine getData_dicts (fun r i w hp hl => (reachable_sound hr).shaped r w ?_ hl) hv h
    rw [Bool.or_eq_true]
    exact .inl (isNode_prefix hn (prefix_snoc hp))
  have := later_data E clientId maxRetries (R := fun a b => (a.look (q ++ [k])).isSome → (b.look (q ++ [k])).isSome) (fun _ h => h)
    (fun _ _ _ h1 h2 h => h2 (h1 h)) (fun D b d h => present_stays E.pyFloat D b d (q ++ [k]) (by simpa using hn) h) es es2 (by rw [hl]; rfl)
  obtain ⟨v', hv'⟩ := Option.isSome_iff_exists.1 this
  have ht := reachable_tree hr2
  exact ⟨v', tree_look ht hv', look_getData (fun r w _ hl => tree_look ht hl) hv'⟩


/-- **C85** The value of a reading stays: if `get_value(*q)` was not None at some moment, it is not None at any later moment. -/
theorem C85_values_partial (es es2 : List Ev) (q : Path) (hq : Reading q) (v : Val) (hv : v ≠ .null)
    (h : getValue false q (after E clientId maxRetries es).g.data = .ok v) :
    ∃ v', v' ≠ .null ∧ getValue false q (after E clientId maxRetries (es ++ es2)).g.data = .ok v' := by
  obtain ⟨hn, hc⟩ := reading_cases hq
  have hr := C83_reachable E clientId maxRetries es
  have hr2 := C83_reachable E clientId maxRetries (es ++ es2)
  have hnn : ∀ {d : Val}, Reachable E.pyFloat d → d ≠ .null := fun hd => tree_look (p := []) (reachable_tree hd) rfl
  rw [C35_value _ _ _ (hnn hr)] at h
  rw [C35_value _ _ _ (hnn hr2)]
  have hl : (after E clientId maxRetries es).g.data.look (q ++ [.s "value"]) = some v := by
    refine getData_dicts (fun r i w hp hl => (reachable_sound hr).shaped r w ?_ hl) hv h
    rw [Bool.or_eq_true]
    left
    rcases List.prefix_concat_iff.1 hp with e | e
    · have := (List.append_inj' e rfl).2
      cases this
    · rcases List.eq_nil_or_concat q with rfl | ⟨q', k, rfl⟩
      · simp at e
      · rw [List.concat_eq_append] at e hn
        rw [List.dropLast_concat] at hn
        exact isNode_prefix hn (prefix_snoc e)
  have := later_data E clientId maxRetries
    (R := fun a b => (a.look (q ++ [.s "value"])).isSome → (b.look (q ++ [.s "value"])).isSome) (fun _ h => h)
    (fun _ _ _ h1 h2 h => h2 (h1 h)) (fun D b d h => by
      rcases hc with hc | hc
      · exact present_stays E.pyFloat D b d _ (by simpa using hc) h
      · exact reading_stays E.pyFloat D b d q hc hn h) es es2 (by rw [hl]; rfl)
  obtain ⟨v', hv'⟩ := Option.isSome_iff_exists.1 this
  have ht := reachable_tree hr2
  exact ⟨v', tree_look ht hv', look_getData (fun r w _ hl => tree_look ht hl) hv'⟩
end

/-- A pump is polled twice; the second answer is cut short. -/
def cutPumpEvs : List Ev := .call .getPumps :: (reply 0 5 12585 (samplePump.enc.take 16) ++ [.resume 2])

/-- The power reading of pump 0. -/
def watts (d : Val) : Option Int :=
  match getValue false [.s "pump", .i 0, .s "watts_now"] d with
  | .ok (.int n) => some n
  | _ => none

/-- The value read there is None. -/
def noWatts (d : Val) : Bool :=
  match getValue false [.s "pump", .i 0, .s "watts_now"] d with
  | .ok .null => true
  | _ => false

/-- **C85** does not hold for the readings of a pump: a second answer that is cut short (and for which the call raises)
removes the value that was known. -/
theorem C85_refuted : watts (after sampleEnv 1 3 (polledEvs .getPumps 12585 samplePump.enc)).g.data = some 200 ∧
    noWatts (after sampleEnv 1 3 (polledEvs .getPumps 12585 samplePump.enc ++ cutPumpEvs)).g.data = true := by
  decide +kernel

/-- After a chlorinator poll the salt reading is there, whatever follows. -/
theorem C85_witness : Group [.s "scg", .s "sensor"] ∧ Reading [.s "scg", .s "sensor", .s "salt_ppm"] ∧
    (∃ v, v ≠ .null ∧ getData false [.s "scg", .s "sensor", .s "salt_ppm"] (after sampleEnv 1 3 (polledEvs .getScg 12573 sampleScg.enc)).g.data = .ok v) ∧
    getValue false [.s "scg", .s "sensor", .s "salt_ppm"] (after sampleEnv 1 3 (polledEvs .getScg 12573 sampleScg.enc)).g.data = .ok (.int 3000) := by
  refine ⟨.scg _ (by simp), .scgSensor _ (by simp), ?_, ?_⟩
  · have h : (match getData false [.s "scg", .s "sensor", .s "salt_ppm"] (after sampleEnv 1 3 (polledEvs .getScg 12573 sampleScg.enc)).g.data with
      | .ok (.dict _) => true | _ => false) = true := by decide +kernel
    split at h
    · rename_i kv hk
      exact ⟨_, by simp, hk⟩
    · cases h
  · have h : (match getValue false [.s "scg", .s "sensor", .s "salt_ppm"] (after sampleEnv 1 3 (polledEvs .getScg 12573 sampleScg.enc)).g.data with
      | .ok (.int n) => n == 3000 | _ => false) = true := by decide +kernel
    split at h
    · rename_i n hk
      rw [hk, eq_of_beq h]
    · cases h

end SL
