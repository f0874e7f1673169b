import Verif.Lemmas.Puts
import Verif.Props.FieldProps
import Verif.Props.LastProps
import Verif.Props.PushProps
/-!
# C109: what a message says is shown when it has been read
-/
set_option linter.unusedVariables false
set_option maxRecDepth 20000
namespace SL

theorem tells_told {D : Decoder} {m : Bytes} {q : Path} {v : Val} (h : Tells D m q v) : Told q := by
  cases h with
  | fixed _ _ _ f _ hf _ =>
    have : ∀ D ∈ [Decoder.status, .config, .scg, .chemistry, .dateTime 0], ∀ e ∈ places D, (sheet e.1).isSome = true := by decide +kernel
    have hD : places D = [] ∨ ∃ D' ∈ [Decoder.status, .config, .scg, .chemistry, .dateTime 0], places D = places D' := by
      cases D with
      | status => exact .inr ⟨_, by simp, rfl⟩
      | config => exact .inr ⟨.config, by simp, rfl⟩
      | scg => exact .inr ⟨.scg, by simp, rfl⟩
      | chemistry => exact .inr ⟨.chemistry, by simp, rfl⟩
      | dateTime now => exact .inr ⟨.dateTime 0, by simp, rfl⟩
      | _ => exact .inl rfl
    rcases hD with e | ⟨D', hD', e⟩
    · rw [e] at hf; cases hf
    · rw [e] at hf
      exact .inl (Option.isSome_iff_exists.1 (this D' hD' _ hf))
  | body _ k key f _ n hn hk hf _ =>
    have : ∀ e ∈ bodyPlaces, (aget e.1 bodySheets).isSome = true := by decide
    exact .inl (Option.isSome_iff_exists.1 (this _ hf))
  | circuit _ id => exact .inr ⟨id, rfl⟩
  | tail _ _ f _ n c _ _ hf _ =>
    have : ∀ e ∈ tailPlaces, (sheet e.1).isSome = true := by decide +kernel
    exact .inl (Option.isSome_iff_exists.1 (this _ hf))
  | pump i _ key f _ hf _ =>
    have : ∀ e ∈ pumpPlaces, (aget e.1 pumpSheets).isSome = true := by decide
    exact .inl (Option.isSome_iff_exists.1 (this _ hf))
  | model => exact .inl ⟨_, rfl⟩
  | chemFirmware => exact .inl ⟨_, rfl⟩
  | firmware => exact .inl ⟨_, rfl⟩

/-- Only the readings of a pump may be empty. -/
theorem blank_pump {D : Decoder} {m : Bytes} {q : Path} {v : Val} (h : Tells D m q v) {s : Sheet} (hs : sheet q = some s) (hb : s.blank = true) :
    ∃ i, D = .pump i := by
  have key : (∀ i k, q ≠ [.s "pump", i, .s k]) → s.blank = false := by
    intro hne
    have h1 : ∀ e ∈ bodySheets, e.2.blank = false := by decide
    have h2 : ∀ e ∈ ctlSheets ++ scgSheets ++ chemSheets, e.2.blank = false := by decide +kernel
    unfold sheet at hs
    split at hs
    · exact h1 _ (mem_of_aget hs)
    · exact absurd rfl (hne _ _)
    · exact h2 _ (mem_of_aget hs)
  refine Classical.byContradiction (fun hD => ?_)
  have : s.blank = false := by
    refine key (fun i k e => ?_)
    cases h with
    | fixed _ _ _ f _ hf _ =>
      subst e
      cases D <;> simp [places, statusPlaces, configPlaces, scgPlaces, chemPlaces, timePlaces] at hf
    | tail _ _ f _ n c _ _ hf _ => subst e; simp [tailPlaces] at hf
    | pump i => exact hD ⟨i, rfl⟩
    | _ => simp at e
  rw [this] at hb
  cases hb

/-- What has been read without error is in the data. -/
theorem decoded_look (f : String → Except PyErr Rat) (D : Decoder) (m : Bytes) {d d' : Val} (hr : Reachable f d')
    (hd : decodeWith (D.prog f) m d = (.ok (), d')) {q : Path} {v : Val} (h : Tells D m q v) :
    ∃ v', Tells D m q v' ∧ ((∃ id : Int, q = [.s "circuit", .i id, .s "value"]) ∧ Val.look q d' = some v' ∨
      Val.look (q ++ [.s "value"]) d' = some v') := by
  obtain ⟨s, hw, hb⟩ := D.puts f m h
  have hq := tells_told h
  have e1 : ((D.prog f).run m 0 d).2 = d' := congrArg Prod.snd hd
  obtain ⟨r, hok⟩ : ∃ r, ((D.prog f).run m 0 d).1 = .ok r := by
    have := congrArg Prod.fst hd
    simp only [decodeWith] at this
    cases hx : ((D.prog f).run m 0 d).1 with
    | ok r => exact ⟨r, rfl⟩
    | error e => rw [hx] at this; cases this
  obtain ⟨h1, h2, h3⟩ := puts_run hq (allOps_and (D.fits f) (D.sheeted f)) (D.shown f m) hw hok
  rw [e1] at h1 h2 h3
  obtain ⟨x, hx⟩ := Option.isSome_iff_exists.1 h1
  rcases hq with ⟨s', hs'⟩ | ⟨id, rfl⟩
  · rcases reachable_sheets hr q s' hs' x hx with ⟨hbl, rfl⟩ | ⟨kv, rfl, hv, -⟩
    · exact absurd hx (h3 (hb (blank_pump h hs' hbl)) (by rw [hs']; rfl))
    · obtain ⟨v', hv'⟩ := Option.isSome_iff_exists.1 hv
      refine ⟨v', h2 _ hx v' ?_, .inr ?_⟩
      · rw [valOf.eq_def]
        split
        · cases hs'
        · rename_i e; cases e; exact hv'
        · rename_i h5 h4; exact absurd rfl (h4 kv)
      · rw [look_append, hx]
        simp [Val.look, hv']
  · exact ⟨x, h2 x hx x rfl, .inl ⟨⟨id, rfl⟩, hx⟩⟩

/-- A message that says something is not empty. -/
theorem tells_nonempty {D : Decoder} {m : Bytes} {q : Path} {v : Val} (h : Tells D m q v) : m ≠ [] := by
  have hN : ∀ {o : Nat} {f : Fmt} {n : Int}, NumAt m o f n → m ≠ [] := by
    rintro o f n ⟨pre, bs, post, e, -, hv⟩ rfl
    simp only [List.nil_eq, List.append_eq_nil_iff] at e
    rw [e.1.2] at hv
    cases f <;> cases hv
  cases h with
  | fixed _ _ _ f _ _ h => obtain ⟨n, h, -⟩ := h; exact hN h
  | body _ _ _ f _ _ h => exact hN h
  | circuit _ _ _ _ _ _ h => exact hN h
  | tail _ _ f _ _ _ h => exact hN h
  | pump _ _ _ f _ _ h => obtain ⟨n, h, -⟩ := h; exact hN h
  | model _ _ _ h => exact hN h
  | chemFirmware _ _ _ h => exact hN h
  | firmware _ s u body rest hm _ =>
    rintro rfl
    have := congrArg List.length hm
    simp [Spec.u32] at this

theorem decoded_shown (f : String → Except PyErr Rat) (D : Decoder) (m : Bytes) {d d' : Val} (hr : Reachable f d')
    (hd : decodeWith (D.prog f) m d = (.ok (), d')) {q : Path} {v : Val} (h : Tells D m q v) :
    ∃ v', Tells D m q v' ∧ Displays d' q v' := by
  obtain ⟨v', h1, h2⟩ := decoded_look f D m hr hd h
  have ht := reachable_tree hr
  refine ⟨v', h1, ?_⟩
  rcases h2 with ⟨⟨id, rfl⟩, hl⟩ | hl
  · refine .inr ⟨id, rfl, ?_⟩
    rw [C35_value _ _ _ (tree_look (p := []) ht rfl)]
    exact getData_look false hl (tree_look ht hl)
  · refine .inl ?_
    rw [C35_value _ _ _ (tree_look (p := []) ht rfl)]
    exact getData_look false hl (tree_look ht hl)

theorem tells_time {now now' : Rat} {m : Bytes} {q : Path} {v : Val} (h : Tells (.dateTime now) m q v) : Tells (.dateTime now') m q v := by
  generalize hD : Decoder.dateTime now = D at h
  cases h with
  | fixed _ _ _ f _ hf h => subst hD; exact .fixed _ m q f v hf h
  | _ => cases hD

section
variable (E : Env) (clientId maxRetries : Int)

/-- **C109** (polls).  When a poll returns normally, the last thing it did on the network was to get a reply to its query (`None` if it was
cancelled while it waited), and everything the reply says is what the gateway shows. -/
theorem C109_poll (es : List Ev) (a : Call) (x : Int × Bytes) (hx : a.getter = some x) (es2 : List Ev) (r : Res)
    (hr : EndsNow E clientId maxRetries es a es2 (.ok r)) :
    ∃ reply, EndsWith (actsOf E clientId maxRetries es a es2) x.1 x.2 reply ∧
      ∀ m D q v, reply = some m → Queries D x.1 x.2 → Tells D m q v →
        ∃ v', Tells D m q v' ∧ Displays (after E clientId maxRetries (es ++ .call a :: es2)).g.data q v' := by
  obtain ⟨reply, he⟩ := (C38_getter E clientId maxRetries es a x hx es2).2 r hr.1
  refine ⟨reply, he, ?_⟩
  rintro m D q v rfl hq h
  obtain ⟨p, D', d, hk, -, hd⟩ := C44_kept_partial E clientId maxRetries es a x hx es2 r hr m (tells_nonempty h) he
  have hrd := C83_reachable E clientId maxRetries (es ++ .call a :: es2)
  have key : D' = D ∨ ∃ n n', D' = .dateTime n' ∧ D = .dateTime n := by
    have hx1 : x.1 ∈ [(12526 : Int), 12592, 12572, 8110] := by
      cases a <;> cases hx <;> simp [statusRequest, chemistryRequest, scgRequest, dateTimeRequest]
    have h1 : (x.1 = 12526 ∧ D' = .status) ∨ (x.1 = 12592 ∧ D' = .chemistry) ∨ (x.1 = 12572 ∧ D' = .scg) ∨ (x.1 = 8110 ∧ ∃ n, D' = .dateTime n) := by
      clear hx
      cases hk with
      | status => exact .inl ⟨rfl, rfl⟩
      | chemistry => exact .inr (.inl ⟨rfl, rfl⟩)
      | scg => exact .inr (.inr (.inl ⟨rfl, rfl⟩))
      | dateTime n => exact .inr (.inr (.inr ⟨rfl, n, rfl⟩))
      | config => exact absurd hx1 (by decide)
      | pump i hi => exact absurd hx1 (by simp [pumpRequest])
    generalize x.1 = c at *
    generalize x.2 = y at *
    cases hq <;> simp_all
  rcases key with rfl | ⟨n, n', rfl, rfl⟩
  · exact decoded_shown _ _ m hrd hd h
  · obtain ⟨v', h1, h2⟩ := decoded_shown _ _ m hrd hd (tells_time (now' := n') h)
    exact ⟨v', tells_time h1, h2⟩

/-- **C109** (pushed messages).  When a pushed message has been handled without error - which is when the listeners are called - everything
it says is what the gateway shows. -/
theorem C109_push (es : List Ev) (h : Honest E clientId maxRetries es) (c code : Nat) (m : Bytes) (D : Decoder) (hD : KnownPush code D)
    (hp : NextPush (after E clientId maxRetries es).g c code m)
    (hd : (decodeWith (D.prog E.pyFloat) m (after E clientId maxRetries es).g.data).1 = .ok ()) (q : Path) (v : Val) (ht : Tells D m q v) :
    ∃ v', Tells D m q v' ∧ Displays (after E clientId maxRetries (es ++ [.handle c])).g.data q v' := by
  obtain ⟨h1, -⟩ := C46_known E clientId maxRetries es h c code m D hD hp _ (Prod.ext hd rfl)
  refine decoded_shown E.pyFloat D m (d := (after E clientId maxRetries es).g.data) (C83_reachable E clientId maxRetries _) ?_ ht
  rw [h1]
  exact Prod.ext hd rfl
end

theorem unique_key {α β : Type} {l : List (α × β)} (hn : (l.map (·.1)).Nodup) {a : α} {b b' : β} (h : (a, b) ∈ l) (h' : (a, b') ∈ l) : b = b' := by
  induction l with
  | nil => cases h
  | cons e l ih =>
    rw [List.map_cons, List.nodup_cons] at hn
    rcases List.mem_cons.1 h with rfl | h1 <;> rcases List.mem_cons.1 h' with h2 | h2
    · exact (congrArg Prod.snd h2).symm
    · exact absurd (List.mem_map.2 ⟨_, h2, rfl⟩) hn.1
    · subst h2; exact absurd (List.mem_map.2 ⟨_, h1, rfl⟩) hn.1
    · exact ih hn.2 h1 h2

theorem reads_unique {f : Place} {m : Bytes} {o : Nat} {v v' : Val} (h : f.Reads m o v) (h' : f.Reads m o v') : v = v' := by
  obtain ⟨n, h1, rfl⟩ := h
  obtain ⟨n', h2, rfl⟩ := h'
  rw [numAt_unique h1 h2]

theorem places_nodup (D : Decoder) : ((places D).map (·.1)).Nodup := by
  cases D with
  | status => decide +kernel
  | config => decide +kernel
  | scg => decide +kernel
  | chemistry => decide +kernel
  | dateTime n => exact (by decide +kernel : (timePlaces.map (·.1)).Nodup)
  | _ => exact .nil

theorem tells_fixed {D : Decoder} {m : Bytes} {q : Path} {v : Val} (h : Tells D m q v) {f : Place} (hf : (q, f) ∈ places D) : f.Reads m 0 v := by
  cases h with
  | fixed _ _ _ f' _ hf' h =>
    rw [unique_key (places_nodup D) hf hf']
    exact h
  | body => simp [places, statusPlaces] at hf
  | circuit => simp [places, statusPlaces] at hf
  | tail _ _ f' _ n c _ _ hf' _ =>
    exfalso
    have : ∀ e ∈ tailPlaces.map (·.1), e ∉ statusPlaces.map (·.1) := by decide +kernel
    exact this q (List.mem_map.2 ⟨_, hf', rfl⟩) (List.mem_map.2 ⟨_, hf, rfl⟩)
  | pump => simp [places] at hf
  | model => simp [places, configPlaces] at hf
  | chemFirmware => simp [places, chemPlaces] at hf
  | firmware => simp [places] at hf

/-- **C109** (one value).  A message says one value about a reading - except about a circuit, which it may list twice, and about the adapter's firmware,
whose text may be encoded in two ways. -/
theorem C109_unique {D : Decoder} {m : Bytes} {q : Path} {v v' : Val} (h : Tells D m q v) (h' : Tells D m q v')
    (hc : ∀ id : Int, q ≠ [.s "circuit", .i id, .s "value"]) (hf : q ≠ [.s "adapter", .s "firmware"]) : v = v' := by
  by_cases hp : ∃ f, (q, f) ∈ places D
  · obtain ⟨f, hp⟩ := hp
    exact reads_unique (tells_fixed h hp) (tells_fixed h' hp)
  · cases h with
    | fixed _ _ _ f _ hf _ => exact absurd ⟨f, hf⟩ hp
    | body _ k key f _ n hn hk hkf hr =>
      generalize hq : ([.s "body", .i k, .s key] : Path) = q at h'
      cases h' with
      | fixed _ _ _ f _ hf _ => subst hq; exact absurd ⟨f, hf⟩ hp
      | body _ k' key' f' _ n' hn' hk' hkf' hr' =>
        simp only [List.cons.injEq, Key.i.injEq, Key.s.injEq, true_and, and_true] at hq
        obtain ⟨e1, rfl⟩ := hq
        have : k = k' := by omega
        subst this
        rw [unique_key (by decide +kernel) hkf' hkf] at hr'
        exact reads_unique hr hr'
      | circuit => simp at hq
      | tail _ _ f' _ _ _ _ _ hf' _ => subst hq; simp [tailPlaces] at hf'
    | circuit _ id => exact absurd rfl (hc id)
    | tail _ _ f _ n c hn hc' hf' hr =>
      cases h' with
      | fixed _ _ _ f _ hf _ => exact absurd ⟨f, hf⟩ hp
      | body => simp [tailPlaces] at hf'
      | circuit => simp [tailPlaces] at hf'
      | tail _ _ f2 _ n2 c2 hn2 hc2 hf2 hr2 =>
        cases numAt_unique hn hn2
        cases numAt_unique hc' hc2
        rw [unique_key (by decide +kernel) hf2 hf'] at hr2
        exact reads_unique hr hr2
    | pump i _ key f _ hkf hr =>
      generalize hq : ([.s "pump", .i i, .s key] : Path) = q at h'
      cases h' with
      | fixed _ _ _ f _ hf _ => subst hq; exact absurd ⟨f, hf⟩ hp
      | pump _ _ key' f' _ hkf' hr' =>
        simp only [List.cons.injEq, Key.s.injEq, true_and, and_true] at hq
        subst hq
        rw [unique_key (by decide +kernel) hkf' hkf] at hr'
        exact reads_unique hr hr'
    | model _ c h h1 h2 =>
      generalize hq : ([.s "controller", .s "model"] : Path) = q at h'
      cases h' with
      | fixed _ _ _ f _ hf _ => subst hq; exact absurd ⟨f, hf⟩ hp
      | model _ c' h' h1' h2' =>
        rw [numAt_unique h1 h1', numAt_unique h2 h2']
    | chemFirmware _ c h h1 h2 =>
      generalize hq : ([.s "intellichem", .s "firmware"] : Path) = q at h'
      cases h' with
      | fixed _ _ _ f _ hf _ => subst hq; exact absurd ⟨f, hf⟩ hp
      | chemFirmware _ c' h' h1' h2' =>
        rw [numAt_unique h1 h1', numAt_unique h2 h2']
    | firmware => exact absurd rfl hf

/-- A chlorinator poll returns; its answer says 60 at byte 16: the salt reading shows 3000. -/
theorem C109_witness :
    EndsNow sampleEnv 1 1 connectEvs .getScg (reply 0 4 12573 sampleScg.enc ++ [.resume 1]) (.ok .none) ∧
    EndsWith (actsOf sampleEnv 1 1 connectEvs .getScg (reply 0 4 12573 sampleScg.enc ++ [.resume 1])) 12572 (leBytes 4 0) (some sampleScg.enc) ∧
    Queries .scg 12572 (leBytes 4 0) ∧ Tells .scg sampleScg.enc [.s "scg", .s "sensor", .s "salt_ppm"] (.int 3000) ∧
    Displays (after sampleEnv 1 1 (connectEvs ++ .call .getScg :: (reply 0 4 12573 sampleScg.enc ++ [.resume 1]))).g.data
      [.s "scg", .s "sensor", .s "salt_ppm"] (.int 3000) := by
  have h3 := C108_witness.2.2
  refine ⟨C44_witness.1, C44_witness.2.1, .scg, h3, ?_⟩
  obtain ⟨reply, h1, h2⟩ := C109_poll sampleEnv 1 1 connectEvs .getScg _ rfl _ _ C44_witness.1
  obtain ⟨h0, c, e⟩ := h1
  obtain ⟨h0', c', e'⟩ := C44_witness.2.1
  rw [e'] at e
  have := (List.append_inj' e rfl).2
  simp only [List.cons.injEq, Act.got.injEq, Except.ok.injEq, and_true] at this
  obtain ⟨v', h4, h5⟩ := h2 _ .scg _ _ this.2.symm .scg h3
  rwa [C109_unique h3 h4 (by simp) (by simp)]

end SL
