import Verif.Spec.Notify
import Verif.Props.PushProps
/-!
# C94: listeners that misbehave
-/
set_option linter.unusedVariables false

namespace SL

section
variable (E : Env) (clientId maxRetries : Int)

theorem unsubscribe_notes (g : Gw) (u : Sub) : (g.unsubscribe u).notes = g.notes ∧ (g.unsubscribe u).data = g.data := by
  simp only [Gw.unsubscribe, Gw.dropCode]
  repeat' (first | exact ⟨rfl, rfl⟩ | split)

theorem unsubscribe_set (g : Gw) (u : Sub) {s : Nat} (h : u.set ≠ s) : (g.unsubscribe u).sets[s]? = g.sets[s]? := by
  have := congrArg Prod.snd (table_del g u)
  change (g.unsubscribe u).sets = (g.table.del u).2 at this
  rw [this]
  simp only [Table.del]
  split
  · split
    · exact List.getElem?_set_ne h
    · rfl
  · rfl

theorem unsubscribes_keep (us : List Sub) : ∀ (g : Gw), (us.foldl Gw.unsubscribe g).notes = g.notes ∧ (us.foldl Gw.unsubscribe g).data = g.data ∧
    ∀ s : Nat, (∀ u ∈ us, u.set ≠ s) → (us.foldl Gw.unsubscribe g).sets[s]? = g.sets[s]? := by
  induction us with
  | nil => exact fun g => ⟨rfl, rfl, fun s _ => rfl⟩
  | cons u us ih =>
    intro g
    obtain ⟨h1, h2, h3⟩ := ih (g.unsubscribe u)
    refine ⟨h1.trans (unsubscribe_notes g u).1, h2.trans (unsubscribe_notes g u).2, fun s hs => ?_⟩
    rw [List.foldl_cons, h3 s (fun v hv => hs v (by simp [hv])), unsubscribe_set g u (hs u (by simp))]

/-- The size of the set a listener can only shrink. -/
theorem unsubscribe_size (g : Gw) (u : Sub) (s : Nat) : (((g.unsubscribe u).sets[s]?).getD []).length ≤ ((g.sets[s]?).getD []).length := by
  have := congrArg Prod.snd (table_del g u)
  change (g.unsubscribe u).sets = (g.table.del u).2 at this
  rw [this]
  simp only [Table.del, Gw.table]
  split
  · rename_i l hl
    split
    · by_cases h : u.set = s
      · subst h
        rw [List.getElem?_set_self (by have := (List.getElem?_eq_some_iff.1 hl).1; exact this), hl]
        simp only [Option.getD_some]
        exact (List.erase_sublist).length_le
      · rw [List.getElem?_set_ne h]
        exact Nat.le_refl _
    · exact Nat.le_refl _
  · exact Nat.le_refl _

theorem unsubscribes_size (us : List Sub) (s : Nat) : ∀ g : Gw, (((us.foldl Gw.unsubscribe g).sets[s]?).getD []).length ≤ ((g.sets[s]?).getD []).length := by
  induction us with
  | nil => exact fun g => Nat.le_refl _
  | cons u us ih => exact fun g => Nat.le_trans (ih _) (unsubscribe_size g u s)

theorem callListener_notes (g : Gw) (cb : Nat) (b : Conduct) : (g.callListener cb b).2.notes = g.notes ++ [(cb, g.data)] ∧
    (g.callListener cb b).2.data = g.data ∧ (∀ s : Nat, (∀ u ∈ b.unsubs, u.set ≠ s) → (g.callListener cb b).2.sets[s]? = g.sets[s]?) ∧
    (g.callListener cb b).1 = (match b.raises with | some e => .error e | none => .ok ()) ∧
    (g.callListener cb b).2 = b.unsubs.foldl Gw.unsubscribe { g with notes := g.notes ++ [(cb, g.data)] } := by
  obtain ⟨h1, h2, h3⟩ := unsubscribes_keep b.unsubs { g with notes := g.notes ++ [(cb, g.data)] }
  unfold Gw.callListener
  cases b.raises <;> exact ⟨h1, h2, h3, rfl, rfl⟩

/-- The part of an iteration in which everybody behaves. -/
theorem iterate_good {conduct : Nat → Conduct} {s size : Nat} (pre : List Nat) (post : List Nat) : ∀ (g : Gw),
    ((g.sets[s]?).getD []).length = size → (∀ cb ∈ pre, (conduct cb).raises = none ∧ ∀ u ∈ (conduct cb).unsubs, u.set ≠ s) →
    ∃ g' : Gw, g.iterate conduct s size (pre ++ post) = g'.iterate conduct s size post ∧ g'.notes = g.notes ++ pre.map (fun cb => (cb, g.data)) ∧
      g'.data = g.data ∧ g'.sets[s]? = g.sets[s]? := by
  induction pre with
  | nil => exact fun g _ _ => ⟨g, rfl, by simp, rfl, rfl⟩
  | cons cb pre ih =>
    intro g hs hg
    obtain ⟨hr, hu⟩ := hg cb (by simp)
    obtain ⟨h1, h2, h3, h4, -⟩ := callListener_notes g cb (conduct cb)
    have h3 := h3 s hu
    rw [hr] at h4
    obtain ⟨g', e1, e2, e3, e4⟩ := ih (g.callListener cb (conduct cb)).2 (by rw [h3]; exact hs) (fun c hc => hg c (by simp [hc]))
    refine ⟨g', ?_, by rw [e2, h1, h2]; simp, e3.trans h2, e4.trans h3⟩
    rw [← e1, List.cons_append, Gw.iterate, if_neg (by simp [hs])]
    cases hc : g.callListener cb (conduct cb) with
    | mk r g1 =>
      rw [hc] at h4
      dsimp only at h4 ⊢
      rw [h4]

/-- What a fair listener unsubscribes has nothing to do with the set being iterated. -/
theorem fair_sets {es : List Ev} (h : Honest E clientId maxRetries es) {code s : Nat} (hs : aget code (after E clientId maxRetries es).g.listeners = some s)
    {b : Conduct} (hb : b.Fair E clientId maxRetries es code) : b.raises = none ∧ ∀ u ∈ b.unsubs, u.set ≠ s := by
  refine ⟨hb.1, fun u hu e => ?_⟩
  obtain ⟨code', hne, es1, cb, es2, rfl, hr⟩ := hb.2 u hu
  obtain ⟨h1, -, -, ho⟩ := returned_own E clientId maxRetries ((h.left E clientId maxRetries).inv E clientId maxRetries) hr
  have := ho.2 code (by rw [e]; exact hs)
  rw [h1] at this
  exact hne this.symm

theorem order_size {es : List Ev} (h : Honest E clientId maxRetries es) {code : Nat} {order : List Nat}
    (ho : InOrder (after E clientId maxRetries es).g code order) (hn : order ≠ []) : ∃ s l, aget code (after E clientId maxRetries es).g.listeners = some s ∧
      (after E clientId maxRetries es).g.sets[s]? = some l ∧ l.Nodup ∧ ∀ cb, cb ∈ l ↔ cb ∈ order := by
  obtain ⟨cb, hcb⟩ := List.exists_mem_of_ne_nil _ hn
  obtain ⟨s, l, h1, h2, h3⟩ := (ho.2 cb).1 hcb
  refine ⟨s, l, h1, h2, (h.inv E clientId maxRetries).nodup s l h2, fun cb' => ?_⟩
  rw [ho.2 cb']
  constructor
  · exact fun h' => ⟨s, l, h1, h2, h'⟩
  · rintro ⟨s', l', h4, h5, h6⟩
    rw [h1] at h4; cases h4
    rw [h2] at h5; cases h5
    exact h6

theorem understood_deliver {g : Gw} {code : Nat} {msg : Bytes} {d : Val} (h : Understood E code msg g.data d) (conduct : Nat → Conduct) (order : List Nat) :
    g.deliver E conduct order code msg = { g with data := d }.notifyIn conduct order code := by
  cases h with
  | known D hD d' h => simp only [Gw.deliver, hD.eq, h]
  | unknown h =>
    have hn : pushDecoder code = none := by
      cases hx : pushDecoder code with
      | none => rfl
      | some D => exact absurd (pushDecoder_known hx) (h D)
    simp only [Gw.deliver, hn]

/-- **C94**, the part that holds: if every listener returns normally and unsubscribes nobody from this code, then every listener is called exactly once, finding the
new data, in whatever order. -/
theorem C94_everybody_partial (es : List Ev) (h : Honest E clientId maxRetries es) (code : Nat) (msg : Bytes) (d : Val) (order : List Nat) (conduct : Nat → Conduct)
    (hd : Understood E code msg (after E clientId maxRetries es).g.data d) (ho : InOrder (after E clientId maxRetries es).g code order) (hn : order ≠ [])
    (hf : ∀ cb ∈ order, (conduct cb).Fair E clientId maxRetries es code) :
    ((after E clientId maxRetries es).g.deliver E conduct order code msg).1 = .ok () ∧
    ((after E clientId maxRetries es).g.deliver E conduct order code msg).2.notes =
      (after E clientId maxRetries es).g.notes ++ order.map (fun cb => (cb, d)) := by
  rw [understood_deliver E hd]
  obtain ⟨s, l, h1, h2, h3, h4⟩ := order_size E clientId maxRetries h ho hn
  simp only [Gw.notifyIn, h1, h2]
  obtain ⟨g', e1, e2, e3, e4⟩ := iterate_good (conduct := conduct) (s := s) order [] { (after E clientId maxRetries es).g with data := d } rfl
    (fun cb hcb => fair_sets E clientId maxRetries h h1 (hf cb hcb))
  rw [List.append_nil] at e1
  simp only [h2] at e1
  rw [e1, Gw.iterate, if_neg (by rw [e4]; simp [h2])]
  exact ⟨rfl, e2⟩

/-- **C94**, what happens otherwise: those that come before the first one that misbehaves are called, and it is; if it raises, nobody else is, and the
task ends with its exception. -/
theorem C94_raises (es : List Ev) (h : Honest E clientId maxRetries es) (code : Nat) (msg : Bytes) (d : Val) (pre : List Nat) (cb : Nat) (post : List Nat)
    (conduct : Nat → Conduct) (hd : Understood E code msg (after E clientId maxRetries es).g.data d)
    (ho : InOrder (after E clientId maxRetries es).g code (pre ++ cb :: post)) (hf : ∀ b ∈ pre, (conduct b).Fair E clientId maxRetries es code)
    (e : PyErr) (he : (conduct cb).raises = some e) :
    ((after E clientId maxRetries es).g.deliver E conduct (pre ++ cb :: post) code msg).1 = .error e ∧
    ((after E clientId maxRetries es).g.deliver E conduct (pre ++ cb :: post) code msg).2.notes =
      (after E clientId maxRetries es).g.notes ++ (pre ++ [cb]).map (fun cb => (cb, d)) := by
  rw [understood_deliver E hd]
  obtain ⟨s, l, h1, h2, h3, h4⟩ := order_size E clientId maxRetries h ho (by simp)
  simp only [Gw.notifyIn, h1, h2]
  obtain ⟨g', e1, e2, e3, e4⟩ := iterate_good (conduct := conduct) (s := s) pre (cb :: post) { (after E clientId maxRetries es).g with data := d } rfl
    (fun cb hcb => fair_sets E clientId maxRetries h h1 (hf cb hcb))
  simp only [h2] at e1
  rw [e1, Gw.iterate, if_neg (by rw [e4]; simp [h2])]
  obtain ⟨c1, c2, -, c4, -⟩ := callListener_notes g' cb (conduct cb)
  rw [he] at c4
  cases hc : g'.callListener cb (conduct cb) with
  | mk r g1 =>
    rw [hc] at c4 c1
    dsimp only at c4 c1 ⊢
    rw [c4]
    refine ⟨rfl, ?_⟩
    rw [c1, e2, e3]
    simp

/-- **C94**, refuted for every history: a listener that unsubscribes itself, or another listener of this code, while it is called silences all those that would
be called after it: the iteration ends with `RuntimeError`. -/
theorem C94_silences (es : List Ev) (code : Nat) (msg : Bytes) (d : Val) (pre : List Nat) (cb : Nat) (post : List Nat) (u : Sub)
    (h : Honest E clientId maxRetries (es ++ [.unsubscribe u]))
    (conduct : Nat → Conduct) (hd : Understood E code msg (after E clientId maxRetries es).g.data d)
    (ho : InOrder (after E clientId maxRetries es).g code (pre ++ cb :: post)) (hf : ∀ b ∈ pre, (conduct b).Fair E clientId maxRetries es code)
    (hu : conduct cb = { unsubs := [u] }) (b : Nat) (hb : Listening (after E clientId maxRetries es).g code b)
    (hb' : ¬ Listening (after E clientId maxRetries (es ++ [.unsubscribe u])).g code b) :
    ((after E clientId maxRetries es).g.deliver E conduct (pre ++ cb :: post) code msg).1 = .error .runtimeError ∧
    ((after E clientId maxRetries es).g.deliver E conduct (pre ++ cb :: post) code msg).2.notes =
      (after E clientId maxRetries es).g.notes ++ (pre ++ [cb]).map (fun cb => (cb, d)) := by
  have h' := h.left E clientId maxRetries
  rw [understood_deliver E hd]
  obtain ⟨s, l, h1, h2, h3, h4⟩ := order_size E clientId maxRetries h' ho (by simp)
  simp only [Gw.notifyIn, h1, h2]
  obtain ⟨hus, hul⟩ : u.set = s ∧ u.cb ∈ l := by
    obtain ⟨es1, cb', code', es2, rfl, hr⟩ := h es u [] rfl
    obtain ⟨k1, k2, -, ho'⟩ := returned_own E clientId maxRetries ((h'.left E clientId maxRetries).inv E clientId maxRetries) hr
    rw [listening_table, table_unsubscribe, (inv_del (h'.inv E clientId maxRetries) ho').2, not_and, Classical.not_not] at hb'
    obtain ⟨rfl, rfl, k3⟩ := hb' hb
    have : u.set = s := by
      have := k3.symm.trans h1
      injection this
    refine ⟨this, ?_⟩
    obtain ⟨s', l', b1, b2, b3⟩ := hb
    rw [h1] at b1; cases b1
    rw [h2] at b2; cases b2
    exact b3
  obtain ⟨g', e1, e2, e3, e4⟩ := iterate_good (conduct := conduct) (s := s) pre (cb :: post) { (after E clientId maxRetries es).g with data := d } rfl
    (fun cb hcb => fair_sets E clientId maxRetries h' h1 (hf cb hcb))
  simp only [h2] at e1 e4
  rw [e1, Gw.iterate, if_neg (by rw [e4]; simp)]
  obtain ⟨c1, c2, -, c4, c5⟩ := callListener_notes g' cb (conduct cb)
  have c4 : (g'.callListener cb (conduct cb)).1 = .ok () := by rw [c4, hu]
  have c5 : (g'.callListener cb (conduct cb)).2 = ({ g' with notes := g'.notes ++ [(cb, g'.data)] } : Gw).unsubscribe u := by
    rw [c5, hu]; rfl
  have hlen : (((g'.callListener cb (conduct cb)).2.sets[s]?).getD []).length ≠ l.length := by
    have ht := congrArg Prod.snd (table_del ({ g' with notes := g'.notes ++ [(cb, g'.data)] } : Gw) u)
    rw [c5]
    change (Gw.unsubscribe _ u).sets = _ at ht
    rw [ht]
    simp only [Table.del, Gw.table]
    subst hus
    rw [e4]
    simp only [hul, if_true]
    rw [List.getElem?_set_self (List.getElem?_eq_some_iff.1 e4).1]
    simp only [Option.getD_some, List.length_erase_of_mem hul]
    have := List.length_pos_of_mem hul
    omega
  cases hc : g'.callListener cb (conduct cb) with
  | mk r g1 =>
    rw [hc] at c4 c1 hlen
    dsimp only at c4 c1 hlen ⊢
    rw [c4]
    dsimp only
    unfold Gw.iterate
    simp only [Option.getD_some]
    rw [if_pos hlen]
    refine ⟨rfl, ?_⟩
    rw [c1, e2, e3]
    simp

/-- With listeners that just return, this is what `Gw.commonCallback` does. -/
theorem C94_agrees (g : Gw) (code : Nat) (msg : Bytes) (order : List Nat) (ho : ∀ s, aget code g.listeners = some s → (g.sets[s]?).getD [] = order) :
    g.deliver E (fun _ => {}) order code msg = g.commonCallback E code msg := by
  have key : ∀ g : Gw, (∀ s, aget code g.listeners = some s → (g.sets[s]?).getD [] = order) →
      g.notifyIn (fun _ => {}) order code = Gw.commonCallback.notify g code := by
    intro g ho
    simp only [Gw.notifyIn, Gw.commonCallback.notify]
    cases hs : aget code g.listeners with
    | none => rfl
    | some s =>
      have run : ∀ (rest : List Nat) (g : Gw) (n : Nat), ((g.sets[s]?).getD []).length = n →
          g.iterate (fun _ => {}) s n rest = (.ok (), { g with notes := g.notes ++ rest.map (fun cb => (cb, g.data)) }) := by
        intro rest
        induction rest with
        | nil =>
          intro g n hn
          rw [Gw.iterate, if_neg (by simp [hn])]
          simp
        | cons cb rest ih =>
          intro g n hn
          rw [Gw.iterate, if_neg (by simp [hn])]
          simp only [Gw.callListener, List.foldl_nil]
          rw [ih { g with notes := g.notes ++ [(cb, g.data)] } n hn]
          simp
      dsimp only
      rw [run order g _ rfl, ho s hs]
  unfold Gw.deliver Gw.commonCallback
  cases pushDecoder code with
  | none => exact key g ho
  | some D =>
    dsimp only
    cases hd : decodeWith (D.prog E.pyFloat) msg g.data with
    | mk r d =>
      cases r with
      | error e => rfl
      | ok u => exact key { g with data := d } ho

end

/-- Callbacks 7 and 8 are subscribed to chemistry messages, callback 9 to another code. -/
def threeEvs : List Ev := bareConnectEvs ++ .call (.subscribe 7 12505) :: (reply 0 4 12523 [] ++ [.resume 1] ++ [.call (.subscribe 8 12505), .call (.subscribe 9 9999)])

theorem three_honest : Honest sampleEnv 1 3 threeEvs := by
  intro pre u post e
  have : Ev.unsubscribe u ∈ threeEvs := by rw [e]; simp
  simp [threeEvs, bareConnectEvs, loginEvs, noConfigEvs, reply] at this

theorem three_order (order : List Nat) (h : order = [7, 8] ∨ order = [8, 7]) : InOrder (after sampleEnv 1 3 threeEvs).g 12505 order := by
  have h1 : aget 12505 (after sampleEnv 1 3 threeEvs).g.listeners = some 0 := by decide +kernel
  have h2 : (after sampleEnv 1 3 threeEvs).g.sets[0]? = some [7, 8] := by decide +kernel
  have : ∀ cb, Listening (after sampleEnv 1 3 threeEvs).g 12505 cb ↔ cb ∈ [7, 8] := by
    intro cb
    constructor
    · rintro ⟨s, l, a, b, c⟩
      rw [h1] at a; cases a
      rw [h2] at b; cases b
      exact c
    · exact fun h => ⟨0, [7, 8], h1, h2, h⟩
  refine ⟨by rcases h with rfl | rfl <;> simp, fun cb => ?_⟩
  rw [this]
  rcases h with rfl | rfl
  · exact Iff.rfl
  · simp [or_comm]

theorem three_got : GotFor sampleEnv 1 3 threeEvs 9999 ⟨9999, 1, 9⟩ ∧ GotFor sampleEnv 1 3 threeEvs 12505 ⟨12505, 0, 7⟩ := by
  refine ⟨⟨bareConnectEvs ++ .call (.subscribe 7 12505) :: (reply 0 4 12523 [] ++ [.resume 1] ++ [.call (.subscribe 8 12505)]), 9, [], by simp [threeEvs],
    gotSub_eq (by decide +kernel)⟩, ⟨bareConnectEvs, 7, _, rfl, gotSub_eq (by decide +kernel)⟩⟩

theorem three_understood : ∃ d, Understood sampleEnv 12505 sampleChem.enc (after sampleEnv 1 3 threeEvs).g.data d := by
  have h : (decodeWith ((Decoder.chemistry).prog sampleEnv.pyFloat) sampleChem.enc (after sampleEnv 1 3 threeEvs).g.data).1.isOk = true := by decide +kernel
  cases hd : decodeWith ((Decoder.chemistry).prog sampleEnv.pyFloat) sampleChem.enc (after sampleEnv 1 3 threeEvs).g.data with
  | mk r d =>
    rw [hd] at h
    cases r with
    | ok u => exact ⟨d, .known .chemistry .chemistry d hd⟩
    | error e => cases h

/-- `C94_everybody_partial` in a concrete case, in which one listener unsubscribes a listener of another code. -/
theorem C94_everybody_witness : ∃ d, Understood sampleEnv 12505 sampleChem.enc (after sampleEnv 1 3 threeEvs).g.data d ∧
    ((after sampleEnv 1 3 threeEvs).g.deliver sampleEnv (fun cb => if cb = 7 then { unsubs := [⟨9999, 1, 9⟩] } else {}) [7, 8] 12505 sampleChem.enc).2.notes =
      (after sampleEnv 1 3 threeEvs).g.notes ++ [(7, d), (8, d)] := by
  obtain ⟨d, hd⟩ := three_understood
  refine ⟨d, hd, (C94_everybody_partial sampleEnv 1 3 threeEvs three_honest 12505 sampleChem.enc d [7, 8] _ hd (three_order _ (.inl rfl)) (by simp) ?_).2⟩
  intro cb hcb
  simp only [List.mem_cons, List.not_mem_nil, or_false] at hcb
  rcases hcb with rfl | rfl
  · refine ⟨rfl, fun u hu => ⟨9999, by decide, ?_⟩⟩
    simp at hu
    subst hu
    exact three_got.1
  · exact ⟨rfl, fun u hu => by simp at hu⟩

/-- **C94** in full is false: if both listeners unsubscribe themselves when they are called, then one of them is not called, whatever the order; if one of them raises,
the other may not be called. -/
theorem C94_refuted (order : List Nat) (ho : order = [7, 8] ∨ order = [8, 7]) :
    InOrder (after sampleEnv 1 3 threeEvs).g 12505 order ∧
    ((after sampleEnv 1 3 threeEvs).g.deliver sampleEnv (fun cb => { unsubs := [⟨12505, 0, cb⟩] }) order 12505 sampleChem.enc).2.notes.map (·.1) = order.take 1 ∧
    ((after sampleEnv 1 3 threeEvs).g.deliver sampleEnv (fun _ => { raises := some .valueError }) order 12505 sampleChem.enc).2.notes.map (·.1) = order.take 1 := by
  refine ⟨three_order order ho, ?_⟩
  rcases ho with rfl | rfl <;> exact ⟨by decide +kernel, by decide +kernel⟩

/-- The hypotheses of `C94_silences` are met there. -/
theorem C94_silences_witness : Honest sampleEnv 1 3 (threeEvs ++ [.unsubscribe ⟨12505, 0, 7⟩]) ∧ Listening (after sampleEnv 1 3 threeEvs).g 12505 7 ∧
    ¬ Listening (after sampleEnv 1 3 (threeEvs ++ [.unsubscribe ⟨12505, 0, 7⟩])).g 12505 7 := by
  refine ⟨?_, (three_order [7, 8] (.inl rfl)).2 7 |>.1 (by simp), ?_⟩
  · intro pre u post e
    have hn : ∀ v, Ev.unsubscribe v ∉ threeEvs := by
      intro v hv
      simp [threeEvs, bareConnectEvs, loginEvs, noConfigEvs, reply] at hv
    rcases List.append_eq_append_iff.1 e with ⟨a, ha, hb⟩ | ⟨a, ha, hb⟩
    · cases a with
      | nil =>
        simp only [List.nil_append, List.cons.injEq, Ev.unsubscribe.injEq] at hb
        obtain ⟨rfl, -⟩ := hb
        rw [List.append_nil] at ha
        subst ha
        obtain ⟨es1, cb, es2, h1, h2⟩ := three_got.2
        exact ⟨es1, cb, 12505, es2, h1, h2⟩
      | cons x a =>
        have := congrArg List.length hb
        simp at this
    · cases a with
      | nil =>
        simp only [List.nil_append, List.cons.injEq, Ev.unsubscribe.injEq] at hb
        obtain ⟨rfl, -⟩ := hb
        rw [List.append_nil] at ha
        subst ha
        obtain ⟨es1, cb, es2, h1, h2⟩ := three_got.2
        exact ⟨es1, cb, 12505, es2, h1, h2⟩
      | cons x a =>
        simp only [List.cons_append, List.cons.injEq] at hb
        exact absurd (by rw [ha, hb.1]; simp) (hn u)
  · rintro ⟨s, l, a, b, c⟩
    have h1 : aget 12505 (after sampleEnv 1 3 (threeEvs ++ [.unsubscribe ⟨12505, 0, 7⟩])).g.listeners = some 0 := by decide +kernel
    have h2 : (after sampleEnv 1 3 (threeEvs ++ [.unsubscribe ⟨12505, 0, 7⟩])).g.sets[0]? = some [8] := by decide +kernel
    rw [h1] at a; cases a
    rw [h2] at b; cases b
    simp at c

end SL
