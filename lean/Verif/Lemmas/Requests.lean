import Verif.Props.ProtocolProps
/-! # Invariants of the request calls -/
namespace SL

/-- A message whose fields fit the header. -/
def Fits (code : Int) (data : Bytes) : Prop := 0 ≤ code ∧ code ≤ 65535 ∧ data.length < 2 ^ 32

/-- Attempt `f` of a call with request code `code` is over and did not settle the call: it timed out
(its future is cancelled) or got a reply that is neither the expected one nor a login rejection. -/
def Failed (p : Proto) (code : Int) (f : Nat) : Prop :=
  p.futs[f]? = some .cancelled ∨
    ∃ m, p.futs[f]? = some (.result m) ∧ m.code ≠ code + 1 ∧ m.code ≠ 13

/-- Attempt `f` is over. -/
def Over (p : Proto) (f : Nat) : Prop :=
  p.futs[f]? = some .cancelled ∨ ∃ m, p.futs[f]? = some (.result m)

/-- What a finished call's outcome says about its attempts. -/
def OutcomeOk (p : Proto) (es : List Event) (t : Nat) (r : Req) : Outcome → Prop
  | .ret (some d) => ∃ init f m, r.mine = init ++ [f] ∧ p.futs[f]? = some (.result m) ∧
      m.code = r.code + 1 ∧ m.data = d
  | .ret none => r.maxRetries < 0 ∨ .cancel t ∈ es ∨ p.closing = true
  | .raised .slLogin => ∃ init f m, r.mine = init ++ [f] ∧ p.futs[f]? = some (.result m) ∧
      m.code = 13 ∧ r.code ≠ 12
  | .raised .slRequest => (r.mine.length : Int) = r.maxRetries + 1 ∧
      ∃ init f m, r.mine = init ++ [f] ∧ p.futs[f]? = some (.result m) ∧
        (m.code = 30 ∨ m.code = 31) ∧ m.code ≠ r.code + 1
  | .raised .slResponse => (r.mine.length : Int) = r.maxRetries + 1 ∧
      ∃ init f m, r.mine = init ++ [f] ∧ p.futs[f]? = some (.result m) ∧
        m.code ≠ 13 ∧ m.code ≠ 30 ∧ m.code ≠ 31 ∧ m.code ≠ r.code + 1
  | .raised .slConnection => p.connected = false ∨
      ((r.mine.length : Int) = r.maxRetries + 1 ∧
        ∃ init f, r.mine = init ++ [f] ∧ p.futs[f]? = some .cancelled ∧ .timeout t ∈ es)
  | .raised .cancelled => .cancel t ∈ es
  | .raised .structError => ¬ Fits r.code r.data
  | .raised _ => False

/-- The state of one call. -/
structure ReqOk (p : Proto) (es : List Event) (t : Nat) (r : Req) : Prop where
  called : .call r.code r.data r.maxRetries ∈ es
  order : r.mine.Pairwise (· < ·)
  mine : ∀ f ∈ r.mine, f < p.futs.length ∧ p.calls[f]? = some (r.code, r.data)
  sleeps : r.sleeps = (List.range r.sleeps.length).map (· + 1)
  start : r.phase = .start → r.mine = [] ∧ r.attempt = 0 ∧ r.sleeps = []
  waiting : ∀ f ex cr, r.phase = .waiting f ex cr →
    ∃ init, r.mine = init ++ [f] ∧ init.length = r.attempt ∧ r.sleeps.length = r.attempt ∧
      (r.attempt : Int) ≤ r.maxRetries ∧ (∀ g ∈ init, Failed p r.code g) ∧
      (ex = true → .timeout t ∈ es ∧ Over p f) ∧ (cr = true → .cancel t ∈ es ∧ Over p f) ∧
      (ex = false → cr = false → p.futs[f]? = some .cancelled → p.closing = true ∨ p.connected = false)
  sleeping : r.phase = .sleeping → r.mine.length = r.attempt + 1 ∧ r.sleeps.length = r.attempt + 1 ∧
    (r.attempt : Int) < r.maxRetries ∧ ∀ g ∈ r.mine, Failed p r.code g
  doneCount : ∀ o, r.phase = .done o → r.sleeps.length ≤ r.mine.length ∧
    r.mine.length ≤ r.sleeps.length + 1 ∧
    ((r.mine = [] ∧ r.sleeps = []) ∨
      ((r.mine.length : Int) ≤ r.maxRetries + 1 ∧ (r.sleeps.length : Int) ≤ r.maxRetries))
  doneEarlier : ∀ o, r.phase = .done o → ∀ g ∈ r.mine.dropLast, Failed p r.code g
  outcome : ∀ o, r.phase = .done o → OutcomeOk p es t r o

/-- Nothing happened to a call, but time passed. -/
theorem ReqOk.mono {p q : Proto} {es es' : List Event} {t : Nat} {r : Req} (h : ReqOk p es t r)
    (hl : Later p q) (hes : ∀ e ∈ es, e ∈ es')
    (hc : ∀ f ∈ r.mine, q.futs[f]? = some .cancelled →
      p.futs[f]? = some .cancelled ∨ q.closing = true ∨ q.connected = false) : ReqOk q es' t r := by
  have hfail : ∀ g, Failed p r.code g → Failed q r.code g := by
    rintro g (hg | ⟨m, hg, hm⟩)
    · exact .inl (hl.cancelled g hg)
    · exact .inr ⟨m, hl.result g m hg, hm⟩
  have hover : ∀ g, Over p g → Over q g := by
    rintro g (hg | ⟨m, hg⟩)
    · exact .inl (hl.cancelled g hg)
    · exact .inr ⟨m, hl.result g m hg⟩
  constructor
  · exact hes _ h.called
  · exact h.order
  · intro f hf
    obtain ⟨h1, h2⟩ := h.mine f hf
    exact ⟨Nat.lt_of_lt_of_le h1 hl.futsLen, hl.calls f _ h2⟩
  · exact h.sleeps
  · exact h.start
  · intro f ex cr hp
    obtain ⟨init, h1, h2, h3, h4, h5, h6, h7, h8⟩ := h.waiting f ex cr hp
    refine ⟨init, h1, h2, h3, h4, fun g hg => hfail g (h5 g hg),
      fun he => ⟨hes _ (h6 he).1, hover f (h6 he).2⟩, fun he => ⟨hes _ (h7 he).1, hover f (h7 he).2⟩, ?_⟩
    intro he hcr hf
    rcases hc f (by rw [h1]; simp) hf with h9 | h9 | h9
    · exact (h8 he hcr h9).imp hl.closing hl.disconnected
    · exact .inl h9
    · exact .inr h9
  · intro hp
    obtain ⟨h1, h2, h3, h4⟩ := h.sleeping hp
    exact ⟨h1, h2, h3, fun g hg => hfail g (h4 g hg)⟩
  · exact h.doneCount
  · intro o hp g hg; exact hfail g (h.doneEarlier o hp g hg)
  · intro o hp
    have := h.outcome o hp
    match o, this with
    | .ret (some d), ⟨init, f, m, h1, h2, h3⟩ => exact ⟨init, f, m, h1, hl.result f m h2, h3⟩
    | .ret none, h1 =>
      exact h1.imp id (fun h2 => h2.imp (hes _) hl.closing)
    | .raised .slLogin, ⟨init, f, m, h1, h2, h3⟩ => exact ⟨init, f, m, h1, hl.result f m h2, h3⟩
    | .raised .slRequest, ⟨h0, init, f, m, h1, h2, h3⟩ => exact ⟨h0, init, f, m, h1, hl.result f m h2, h3⟩
    | .raised .slResponse, ⟨h0, init, f, m, h1, h2, h3⟩ => exact ⟨h0, init, f, m, h1, hl.result f m h2, h3⟩
    | .raised .slConnection, h1 =>
      refine h1.imp hl.disconnected ?_
      rintro ⟨h0, init, f, h1, h2, h3⟩
      exact ⟨h0, init, f, h1, hl.cancelled f h2, hes _ h3⟩
    | .raised .cancelled, h1 => exact hes _ h1
    | .raised .structError, h1 => exact h1

/-- The invariant of a whole connection with its request calls. -/
structure WorldOk (es : List Event) (w : World) : Prop where
  ids : InvIds w.p
  reqs : ∀ (t : Nat) (r : Req), w.reqs[t]? = some r → ReqOk w.p es t r
  disjoint : ∀ (t t' : Nat) (r r' : Req) (f : Nat), w.reqs[t]? = some r → w.reqs[t']? = some r' →
    f ∈ r.mine → f ∈ r'.mine → t = t'
  owner : ∀ (n : Nat), n < w.p.futs.length → ∃ (t : Nat) (r : Req), w.reqs[t]? = some r ∧ n ∈ r.mine
  pending : ∀ (n : Nat), w.p.futs[n]? = some .pending → ∃ (t : Nat) (r : Req), w.reqs[t]? = some r ∧
    (r.phase = .waiting n false false ∨ ¬ Fits r.code r.data)
  cleanups : 0 < w.cleanups → w.p.connected = false
  closed : w.p.connected = false → w.p.tclosing = true ∧ w.p.closed = true
  closers : w.closers ≠ [] → w.p.closing = true

theorem WorldOk.init : WorldOk [] World.init := by
  constructor
  · exact InvIds.init
  all_goals simp [World.init]

/-- Events that leave the calls alone. -/
theorem WorldOk.same {es : List Event} {w w' : World} (h : WorldOk es w) (e : Event)
    (hs : PSteps w.p w'.p) (hr : w'.reqs = w.reqs)
    (hlen : w'.p.futs.length = w.p.futs.length)
    (hp : ∀ n : Nat, w'.p.futs[n]? = some .pending → w.p.futs[n]? = some .pending)
    (hc : ∀ f : Nat, w'.p.futs[f]? = some .cancelled →
      w.p.futs[f]? = some .cancelled ∨ w'.p.closing = true ∨ w'.p.connected = false)
    (hcl : 0 < w'.cleanups → w'.p.connected = false)
    (hcd : w'.p.connected = false → w'.p.tclosing = true ∧ w'.p.closed = true)
    (hcs : w'.closers ≠ [] → w'.p.closing = true) :
    WorldOk (es ++ [e]) w' := by
  have hl := hs.later
  constructor
  · exact hs.preserves (fun _ _ a h => h.atom a) h.ids
  · intro t r htr
    rw [hr] at htr
    exact (h.reqs t r htr).mono hl (fun e he => List.mem_append_left _ he) (fun f _ => hc f)
  · rw [hr]; exact h.disjoint
  · rw [hr, hlen]; exact h.owner
  · intro n hn
    rw [hr]; exact h.pending n (hp n hn)
  · exact hcl
  · exact hcd
  · exact hcs

theorem Over.not_pending {p : Proto} {f : Nat} (h : Over p f) : p.futs[f]? ≠ some .pending := by
  rcases h with h | ⟨m, h⟩ <;> simp [h]

/-- A call changes its own state, the protocol possibly changing one future of this call. -/
theorem WorldOk.own {es : List Event} {w : World} (h : WorldOk es w) (e : Event) {q : Proto}
    {t : Nat} {r r' : Req} (hr : w.reqs[t]? = some r) (hs : PSteps w.p q)
    (hlen : q.futs.length = w.p.futs.length)
    (hother : ∀ f : Nat, f ∉ r.mine → q.futs[f]? = w.p.futs[f]?)
    (hmine : r'.mine = r.mine)
    (hpend : ∀ n : Nat, q.futs[n]? = some .pending → w.p.futs[n]? = some .pending)
    (hph : ∀ n : Nat, r.phase = .waiting n false false → q.futs[n]? = some .pending → r'.phase = .waiting n false false)
    (hfit : r'.code = r.code ∧ r'.data = r.data)
    (hconn : q.connected = w.p.connected)
    (hok : ReqOk q (es ++ [e]) t r') :
    WorldOk (es ++ [e]) ({ w with p := q }.setReq t r') := by
  have hl := hs.later
  have htl := lt_of_getElem? hr
  have hget : ∀ t' : Nat, (({ w with p := q } : World).setReq t r').reqs[t']? =
      if t = t' then some r' else w.reqs[t']? := by
    intro t'
    simp only [World.setReq, List.getElem?_set]
    split
    · rename_i h1; subst h1; simp
    · rfl
  constructor
  · exact hs.preserves (fun _ _ a h => h.atom a) h.ids
  · intro t' r2 h2
    rw [hget] at h2
    split at h2
    · rename_i h3; subst h3; simp only [Option.some.injEq] at h2; subst h2; exact hok
    · rename_i h3
      refine (h.reqs t' r2 h2).mono hl (fun e he => List.mem_append_left _ he) ?_
      intro f hf hcf
      left
      have : f ∉ r.mine := fun hm => h3 (h.disjoint t t' r r2 f hr h2 hm hf)
      simp only [World.setReq] at hcf
      rw [hother f this] at hcf; exact hcf
  · intro t1 t2 r1 r2 f h1 h2 hf1 hf2
    rw [hget] at h1 h2
    split at h1 <;> split at h2
    · omega
    · rename_i a _
      subst a
      simp only [Option.some.injEq] at h1; subst h1
      rw [hmine] at hf1
      exact h.disjoint _ _ _ _ f hr h2 hf1 hf2
    · rename_i a
      subst a
      simp only [Option.some.injEq] at h2; subst h2
      rw [hmine] at hf2
      exact h.disjoint _ _ _ _ f h1 hr hf1 hf2
    · exact h.disjoint _ _ _ _ f h1 h2 hf1 hf2
  · intro n hn
    have hn' : n < w.p.futs.length := by rw [← hlen]; exact hn
    obtain ⟨t', r2, h1, h2⟩ := h.owner n hn'
    by_cases htt : t = t'
    · subst htt
      rw [hr] at h1; simp only [Option.some.injEq] at h1; subst h1
      exact ⟨t, r', by rw [hget]; simp, by rw [hmine]; exact h2⟩
    · exact ⟨t', r2, by rw [hget, if_neg htt]; exact h1, h2⟩
  · intro n hn
    obtain ⟨t', r2, h1, h2⟩ := h.pending n (hpend n hn)
    by_cases htt : t = t'
    · subst htt
      rw [hr] at h1; simp only [Option.some.injEq] at h1; subst h1
      refine ⟨t, r', by rw [hget]; simp, ?_⟩
      rcases h2 with h2 | h2
      · exact .inl (hph n h2 hn)
      · right; rw [hfit.1, hfit.2]; exact h2
    · exact ⟨t', r2, by rw [hget, if_neg htt]; exact h1, h2⟩
  · intro hc
    show q.connected = false
    rw [hconn]; exact h.cleanups hc
  · intro hc
    have hc' : w.p.connected = false := by rw [← hconn]; exact hc
    exact ⟨hl.tclosing (h.closed hc').1, hl.closed (h.closed hc').2⟩
  · exact fun hc => hl.closing (h.closers hc)

/-! ### The pieces of `async_make_request` keep a call's invariant -/

/-- What is known of a call that just got over its attempt `f` (all but the new phase). -/
structure Mid (p : Proto) (es : List Event) (t : Nat) (r : Req) (init : List Nat) (f : Nat) : Prop where
  called : .call r.code r.data r.maxRetries ∈ es
  order : r.mine.Pairwise (· < ·)
  mine : ∀ f ∈ r.mine, f < p.futs.length ∧ p.calls[f]? = some (r.code, r.data)
  sleeps : r.sleeps = (List.range r.sleeps.length).map (· + 1)
  mineEq : r.mine = init ++ [f]
  initLen : init.length = r.attempt
  sleepsLen : r.sleeps.length = r.attempt
  attempt : (r.attempt : Int) ≤ r.maxRetries
  failed : ∀ g ∈ init, Failed p r.code g

theorem Mid.done {p : Proto} {es : List Event} {t : Nat} {r : Req} {init : List Nat} {f : Nat}
    (h : Mid p es t r init f) (o : Outcome) (le : Option PyErr)
    (ho : OutcomeOk p es t { r with phase := .done o, lastError := le } o) :
    ReqOk p es t { r with phase := .done o, lastError := le } := by
  have hl : r.mine.length = r.attempt + 1 := by rw [h.mineEq]; simp [h.initLen]
  have := h.attempt
  have := h.sleepsLen
  constructor
  · exact h.called
  · exact h.order
  · exact h.mine
  · exact h.sleeps
  · simp
  · simp
  · simp
  · intro o' _
    refine ⟨?_, ?_, .inr ⟨?_, ?_⟩⟩ <;> simp only <;> omega
  · intro o' _ g hg
    simp only [h.mineEq, List.dropLast_concat] at hg
    exact h.failed g hg
  · intro o' ho'
    simp only [Phase.done.injEq] at ho'
    subst ho'; exact ho

theorem Mid.endAttempt {p : Proto} {es : List Event} {t : Nat} {r : Req} {init : List Nat} {f : Nat}
    (h : Mid p es t r init f) (e : PyErr) (hf : Failed p r.code f)
    (ho : (r.mine.length : Int) = r.maxRetries + 1 →
      OutcomeOk p es t { r with phase := .done (.raised e), lastError := some e } (.raised e)) :
    ReqOk p es t (r.endAttempt e) := by
  have hl : r.mine.length = r.attempt + 1 := by rw [h.mineEq]; simp [h.initLen]
  have hs := h.sleepsLen
  have ha := h.attempt
  unfold Req.endAttempt
  split
  · rename_i h1
    exact h.done (.raised e) (some e) (ho (by omega))
  · rename_i h1
    constructor
    · exact h.called
    · exact h.order
    · exact h.mine
    · simp only [List.length_append, List.length_singleton]
      rw [List.range_succ, List.map_append, ← h.sleeps, hs]
      simp
    · simp
    · simp
    · intro _
      refine ⟨hl, by simp; omega, by simp only; omega, ?_⟩
      intro g hg
      simp only [h.mineEq, List.mem_append, List.mem_singleton] at hg
      rcases hg with hg | hg
      · exact h.failed g hg
      · subst hg; exact hf
    · simp
    · simp
    · simp

theorem Mid.onResult {p : Proto} {es : List Event} {t : Nat} {r : Req} {init : List Nat} {f : Nat}
    (h : Mid p es t r init f) (m : Msg) (hm : p.futs[f]? = some (.result m)) :
    ReqOk p es t (r.onResult m) := by
  unfold Req.onResult
  split
  · rename_i h1
    exact h.done (.ret (some m.data)) r.lastError ⟨init, f, m, h.mineEq, hm, h1, rfl⟩
  · rename_i h1
    split
    · rename_i h2
      exact h.done (.raised .slLogin) r.lastError ⟨init, f, m, h.mineEq, hm, h2, by simp only; omega⟩
    · rename_i h2
      apply h.endAttempt _ (.inr ⟨m, hm, h1, h2⟩)
      intro hlast
      unfold replyError
      rw [if_neg h2]
      split
      · rename_i h3; exact ⟨hlast, init, f, m, h.mineEq, hm, .inl h3, h1⟩
      · split
        · rename_i h3; exact ⟨hlast, init, f, m, h.mineEq, hm, .inr h3, h1⟩
        · rename_i h3 h4; exact ⟨hlast, init, f, m, h.mineEq, hm, h2, h3, h4, h1⟩

theorem Mid.onCancelled {p : Proto} {es : List Event} {t : Nat} {r : Req} {init : List Nat} {f : Nat}
    (h : Mid p es t r init f) (hc : .cancel t ∈ es ∨ p.closing = true ∨ p.connected = false) :
    ReqOk p es t (r.onCancelled p.connected) := by
  unfold Req.onCancelled
  split
  · rename_i h1
    refine h.done (.ret none) r.lastError ?_
    rcases hc with hc | hc | hc
    · exact .inr (.inl hc)
    · exact .inr (.inr hc)
    · rw [hc] at h1; simp at h1
  · rename_i h1
    exact h.done (.raised .slConnection) r.lastError (.inl (by simpa using h1))

theorem endAttempt_fields (r : Req) (e : PyErr) :
    (r.endAttempt e).mine = r.mine ∧ (r.endAttempt e).code = r.code ∧ (r.endAttempt e).data = r.data := by
  unfold Req.endAttempt; split <;> exact ⟨rfl, rfl, rfl⟩

theorem onResult_fields (r : Req) (m : Msg) :
    (r.onResult m).mine = r.mine ∧ (r.onResult m).code = r.code ∧ (r.onResult m).data = r.data := by
  unfold Req.onResult
  split
  · exact ⟨rfl, rfl, rfl⟩
  · split
    · exact ⟨rfl, rfl, rfl⟩
    · exact endAttempt_fields _ _

theorem onTimeout_fields (r : Req) (s : Option FutState) :
    (r.onTimeout s).mine = r.mine ∧ (r.onTimeout s).code = r.code ∧ (r.onTimeout s).data = r.data := by
  unfold Req.onTimeout
  split
  · exact onResult_fields _ _
  · exact endAttempt_fields _ _

theorem onCancelled_fields (r : Req) (c : Bool) :
    (r.onCancelled c).mine = r.mine ∧ (r.onCancelled c).code = r.code ∧ (r.onCancelled c).data = r.data := by
  unfold Req.onCancelled; split <;> exact ⟨rfl, rfl, rfl⟩

theorem pairwise_append_one {l : List Nat} {x : Nat} (h : l.Pairwise (· < ·)) (hx : ∀ y ∈ l, y < x) :
    (l ++ [x]).Pairwise (· < ·) := by
  rw [List.pairwise_append]
  exact ⟨h, by simp, fun a ha b hb => by simp only [List.mem_singleton] at hb; rw [hb]; exact hx a ha⟩

/-- Starting an attempt keeps the invariant.  `r` is the call at the top of the loop body. -/
theorem WorldOk.startAttempt {es : List Event} {w : World} (h : WorldOk es w) (e : Event) {t : Nat}
    {r0 r : Req} (hr0 : w.reqs[t]? = some r0)
    (hnw : ∀ n, r0.phase ≠ .waiting n false false)
    (hcode : r.code = r0.code) (hdata : r.data = r0.data) (hmr : r.maxRetries = r0.maxRetries)
    (hmine : r.mine = r0.mine) (hsl : r.sleeps = r0.sleeps)
    (hml : r.mine.length = r.attempt) (hsll : r.sleeps.length = r.attempt)
    (hfail : ∀ g ∈ r.mine, Failed w.p r.code g)
    (hatt : r.attempt = 0 ∨ (r.attempt : Int) ≤ r.maxRetries) :
    WorldOk (es ++ [e]) (w.startAttempt t r) := by
  have hR := h.reqs t r0 hr0
  have hcalled : .call r.code r.data r.maxRetries ∈ es ++ [e] := by
    rw [hcode, hdata, hmr]; exact List.mem_append_left _ hR.called
  have htl := lt_of_getElem? hr0
  have hself : ({ w with p := w.p } : World) = w := rfl
  have empty_done : ∀ o, OutcomeOk w.p (es ++ [e]) t { r with phase := .done o } o →
      ReqOk w.p (es ++ [e]) t { r with phase := .done o } := by
    intro o ho
    constructor
    · exact hcalled
    · show r.mine.Pairwise _
      rw [hmine]; exact hR.order
    · intro f hf
      have := hR.mine f (by rw [← hmine]; exact hf)
      simp only [hcode, hdata]; exact this
    · show r.sleeps = _
      have := hR.sleeps
      rw [← hsl] at this; exact this
    · simp
    · simp
    · simp
    · intro o' _
      refine ⟨by simp only; omega, by simp only; omega, ?_⟩
      simp only
      rcases hatt with ha | ha
      · left
        exact ⟨List.eq_nil_of_length_eq_zero (by omega), List.eq_nil_of_length_eq_zero (by omega)⟩
      · right; omega
    · intro o' _ g hg
      exact hfail g (List.dropLast_subset _ hg)
    · intro o' ho'
      simp only [Phase.done.injEq] at ho'
      subst ho'; exact ho
  unfold World.startAttempt
  split
  · rename_i h1
    have hz : r.attempt = 0 := by rcases hatt with ha | ha <;> omega
    have := h.own e (r' := { r with phase := .done (.ret none) }) hr0 (.refl _) rfl (fun _ _ => rfl) hmine (fun _ hn => hn)
      (fun n hn => absurd hn (hnw n)) ⟨hcode, hdata⟩ rfl
      (empty_done (.ret none) (.inl (by simp only; omega)))
    exact this
  · rename_i hmr'
    split
    · rename_i h1
      have := h.own e (r' := { r with phase := .done (.raised .slConnection) }) hr0 (.refl _) rfl (fun _ _ => rfl) hmine (fun _ hn => hn)
        (fun n hn => absurd hn (hnw n)) ⟨hcode, hdata⟩ rfl
        (empty_done (.raised .slConnection) (.inl (by simpa using h1)))
      exact this
    · rename_i hconn
      -- a message is issued
      have hcn : w.p.connected = true := by simpa using hconn
      obtain ⟨futs, written, timers, kaStop, es', hf, hw, -⟩ := awaitSend_spec w.p r.code r.data
      have hsteps : PSteps w.p (w.p.awaitSend r.code r.data).1 := .one (.send _ _ _)
      have hok2 := awaitSend_ok w.p r.code r.data
      have herr := awaitSend_error w.p r.code r.data
      generalize hA : w.p.awaitSend r.code r.data = A at es' hsteps hok2 herr
      obtain ⟨q, res⟩ := A
      simp only at es' hsteps
      have hlat := hsteps.later
      have hqf : q.futs = w.p.futs ++ [if w.p.closing then .cancelled else .pending] := by rw [es']; exact hf
      have hqlen : q.futs.length = w.p.futs.length + 1 := by rw [hqf]; simp
      have hqold : ∀ f, f < w.p.futs.length → q.futs[f]? = w.p.futs[f]? := by
        intro f hfl; rw [hqf, List.getElem?_append_left hfl]
      have hqnew : q.futs[w.p.futs.length]? = some (if w.p.closing then .cancelled else .pending) := by
        rw [hqf]; simp
      have hqcalls : q.calls[w.p.futs.length]? = some (r.code, r.data) := by
        rw [es']; simp only [Proto.create]; rw [← h.ids.calls]; simp
      have hqclosing : q.closing = w.p.closing := by rw [es']; rfl
      have hqconn : q.connected = w.p.connected := by rw [es']; rfl
      -- the common part: any new state `r'` of the call whose attempts are `r.mine ++ [n]`
      have build : ∀ r' : Req, r'.mine = r.mine ++ [w.p.futs.length] → r'.code = r.code → r'.data = r.data →
          (q.futs[w.p.futs.length]? = some .pending →
            r'.phase = .waiting w.p.futs.length false false ∨ ¬ Fits r'.code r'.data) →
          ReqOk q (es ++ [e]) t r' → WorldOk (es ++ [e]) ({ w with p := q }.setReq t r') := by
        intro r' hm' hc' hd' hpd hok
        have hget : ∀ t' : Nat, (({ w with p := q } : World).setReq t r').reqs[t']? =
            if t = t' then some r' else w.reqs[t']? := by
          intro t'
          simp only [World.setReq, List.getElem?_set]
          split
          · rename_i h1; subst h1; simp
          · rfl
        constructor
        · exact hsteps.preserves (fun _ _ a h => h.atom a) h.ids
        · intro t' r2 h2
          rw [hget] at h2
          split at h2
          · rename_i h3; subst h3; simp only [Option.some.injEq] at h2; subst h2; exact hok
          · rename_i h3
            refine (h.reqs t' r2 h2).mono hlat (fun e he => List.mem_append_left _ he) ?_
            intro f hf' hcf
            left
            rw [show (({ w with p := q } : World).setReq t r').p = q from rfl,
              hqold f ((h.reqs t' r2 h2).mine f hf').1] at hcf
            exact hcf
        · intro t1 t2 r1 r2 f h1 h2 hf1 hf2
          rw [hget] at h1 h2
          have aux : ∀ (t2 : Nat) (r2 : Req), w.reqs[t2]? = some r2 → f ∈ r2.mine → f ∈ r'.mine → t = t2 := by
            intro t2 r2 h2 hf2 hf1
            rw [hm', List.mem_append, List.mem_singleton] at hf1
            rcases hf1 with hf1 | hf1
            · rw [hmine] at hf1; exact h.disjoint _ _ _ _ f hr0 h2 hf1 hf2
            · have := ((h.reqs t2 r2 h2).mine f hf2).1; omega
          split at h1 <;> split at h2
          · omega
          · rename_i a _
            simp only [Option.some.injEq] at h1; subst h1 a
            exact aux t2 r2 h2 hf2 hf1
          · rename_i a
            simp only [Option.some.injEq] at h2; subst h2 a
            exact (aux t1 r1 h1 hf1 hf2).symm
          · exact h.disjoint _ _ _ _ f h1 h2 hf1 hf2
        · intro n hn
          have hn' : n < w.p.futs.length + 1 := by rw [← hqlen]; exact hn
          by_cases hnl : n < w.p.futs.length
          · obtain ⟨t', r2, h1, h2⟩ := h.owner n hnl
            by_cases htt : t = t'
            · subst htt
              rw [hr0] at h1; simp only [Option.some.injEq] at h1; subst h1
              exact ⟨t, r', by rw [hget]; simp, by rw [hm', hmine]; exact List.mem_append_left _ h2⟩
            · exact ⟨t', r2, by rw [hget, if_neg htt]; exact h1, h2⟩
          · have : n = w.p.futs.length := by omega
            exact ⟨t, r', by rw [hget]; simp, by rw [hm', this]; simp⟩
        · intro n hn
          have hn2 : q.futs[n]? = some .pending := hn
          have hn' := lt_of_getElem? hn2
          by_cases hnl : n < w.p.futs.length
          · rw [hqold n hnl] at hn2
            obtain ⟨t', r2, h1, h2⟩ := h.pending n hn2
            by_cases htt : t = t'
            · subst htt
              rw [hr0] at h1; simp only [Option.some.injEq] at h1; subst h1
              refine ⟨t, r', by rw [hget]; simp, ?_⟩
              rcases h2 with h2 | h2
              · exact absurd h2 (hnw n)
              · right; rw [hc', hd', hcode, hdata]; exact h2
            · exact ⟨t', r2, by rw [hget, if_neg htt]; exact h1, h2⟩
          · have hnn : n = w.p.futs.length := by omega
            subst hnn
            exact ⟨t, r', by rw [hget]; simp, hpd hn2⟩
        · intro hc
          show q.connected = false
          rw [hqconn]; exact h.cleanups hc
        · intro hc
          have hc' : w.p.connected = false := by rw [← hqconn]; exact hc
          exact ⟨hlat.tclosing (h.closed hc').1, hlat.closed (h.closed hc').2⟩
        · exact fun hc => hlat.closing (h.closers hc)
      have hmid : ∀ ph le, Mid q (es ++ [e]) t { r with mine := r.mine ++ [w.p.futs.length], phase := ph, lastError := le }
          r.mine w.p.futs.length := by
        intro ph le
        constructor
        · exact hcalled
        · refine pairwise_append_one (by rw [hmine]; exact hR.order) ?_
          intro y hy; exact (hR.mine y (by rw [← hmine]; exact hy)).1
        · intro f hff
          simp only [List.mem_append, List.mem_singleton] at hff
          rcases hff with hff | hff
          · obtain ⟨h1, h2⟩ := hR.mine f (by rw [← hmine]; exact hff)
            refine ⟨by omega, ?_⟩
            simp only [hcode, hdata]
            exact hlat.calls f _ h2
          · subst hff; exact ⟨by omega, hqcalls⟩
        · show r.sleeps = _
          have := hR.sleeps
          rw [← hsl] at this; exact this
        · rfl
        · exact hml
        · exact hsll
        · show (r.attempt : Int) ≤ r.maxRetries
          omega
        · intro g hg
          rcases hfail g hg with hg | ⟨m, hg, hm⟩
          · exact .inl (hlat.cancelled g hg)
          · exact .inr ⟨m, hlat.result g m hg, hm⟩
      cases res with
      | error er =>
        simp only
        obtain ⟨e1, e2, -, -⟩ := herr er rfl
        subst e1
        have hnf : ¬ Fits r.code r.data := by
          rintro ⟨f1, f2, f3⟩
          rw [C01_make_message, if_pos] at e2
          · simp at e2
          · have := h.ids.nextId
            exact ⟨by omega, by omega, f1, f2, f3⟩
        apply build
        · rfl
        · rfl
        · rfl
        · intro _; right; exact hnf
        · exact (hmid r.phase r.lastError).done (.raised .structError) r.lastError hnf
      | ok f =>
        have hff := hok2 f rfl
        subst hff
        simp only
        split
        · rename_i hcan
          apply build
          · exact (onCancelled_fields _ _).1
          · exact (onCancelled_fields _ _).2.1
          · exact (onCancelled_fields _ _).2.2
          · intro hpd; rw [hpd] at hcan; simp at hcan
          · refine (hmid r.phase r.lastError).onCancelled (.inr (.inl ?_))
            rw [hqnew] at hcan
            rw [hqclosing]
            by_cases hcl : w.p.closing
            · exact hcl
            · simp [hcl] at hcan
        · rename_i hcan
          have hopen : w.p.closing = false := by
            by_cases hcl : w.p.closing
            · rw [hqnew] at hcan; simp [hcl] at hcan
            · simpa using hcl
          apply build
          · rfl
          · rfl
          · rfl
          · intro _; left; rfl
          · have hm := hmid (.waiting w.p.futs.length false false) r.lastError
            constructor
            · exact hm.called
            · exact hm.order
            · exact hm.mine
            · exact hm.sleeps
            · simp
            · intro f ex cr hph
              simp only [Phase.waiting.injEq] at hph
              obtain ⟨h1, h2, h3⟩ := hph
              subst h1 h2 h3
              refine ⟨r.mine, rfl, hml, hsll, hm.attempt, hm.failed, by simp, by simp, ?_⟩
              intro _ _ hcc
              rw [hqnew, hopen] at hcc; simp at hcc
            · simp
            · simp
            · simp
            · simp

theorem WorldOk.step {es : List Event} {w : World} (h : WorldOk es w) (e : Event) :
    WorldOk (es ++ [e]) (w.step e) := by
  have hnop : ∀ e : Event, WorldOk (es ++ [e]) w := fun e =>
    h.same e (.refl _) rfl rfl (fun _ hn => hn) (fun f hf => .inl hf) h.cleanups h.closed h.closers
  have hquiet : ∀ (e : Event) (q : Proto), PSteps w.p q → q.futs = w.p.futs → q.connected = w.p.connected →
      WorldOk (es ++ [e]) { w with p := q } := by
    intro e q hs hf hc
    refine h.same e (w' := { w with p := q }) hs rfl (by simp only; rw [hf]) (by intro n; simp only; rw [hf]; exact id)
      (by intro f; simp only; rw [hf]; exact .inl) (fun hcl => by simp only; rw [hc]; exact h.cleanups hcl) ?_ (fun hcc => hs.later.closing (h.closers hcc))
    intro hc'
    have hc'' : w.p.connected = false := by rw [← hc]; exact hc'
    exact ⟨hs.later.tclosing (h.closed hc'').1, hs.later.closed (h.closed hc'').2⟩
  have hcancelProto : ∀ (f : Nat), PSteps w.p (w.p.cancelFut f) := fun f => .one (.cancelFut _ _)
  cases e with
  | call code data maxRetries =>
    have hbase := hnop (.call code data maxRetries)
    simp only [World.step]
    constructor
    · exact h.ids
    · intro t r hr
      simp only at hr
      rw [getElem?_append_one] at hr
      split at hr
      · exact hbase.reqs t r hr
      · split at hr
        · simp only [Option.some.injEq] at hr
          subst hr
          constructor <;> simp
        · simp at hr
    · intro t t' r r' f h1 h2 hf hf'
      simp only at h1 h2
      rw [getElem?_append_one] at h1 h2
      have : ∀ (t : Nat) (r : Req), (if t < w.reqs.length then w.reqs[t]? else
          if t = w.reqs.length then some { code, data, maxRetries } else none) = some r → f ∈ r.mine →
          w.reqs[t]? = some r := by
        intro t r h1 hf
        split at h1
        · exact h1
        · split at h1
          · simp only [Option.some.injEq] at h1; subst h1; simp at hf
          · simp at h1
      exact h.disjoint t t' r r' f (this t r h1 hf) (this t' r' h2 hf') hf hf'
    · intro n hn
      obtain ⟨t, r, h1, h2⟩ := h.owner n hn
      exact ⟨t, r, by simp only; rw [List.getElem?_append_left (lt_of_getElem? h1)]; exact h1, h2⟩
    · intro n hn
      obtain ⟨t, r, h1, h2⟩ := h.pending n hn
      exact ⟨t, r, by simp only; rw [List.getElem?_append_left (lt_of_getElem? h1)]; exact h1, h2⟩
    · exact h.cleanups
    · exact h.closed
    · exact h.closers
  | run t =>
    simp only [World.step]
    split
    · rename_i r hr
      split
      · rename_i hp
        have hR := h.reqs t r hr
        obtain ⟨s1, s2, s3⟩ := hR.start hp
        refine h.startAttempt (.run t) hr (by rw [hp]; simp) rfl rfl rfl rfl rfl (by rw [s1, s2]; rfl)
          (by rw [s3, s2]; rfl) (by rw [s1]; simp) (.inl s2)
      · exact hnop _
    · exact hnop _
  | wake t =>
    simp only [World.step]
    split
    · rename_i r hr
      split
      · rename_i hp
        have hR := h.reqs t r hr
        obtain ⟨s1, s2, s3, s4⟩ := hR.sleeping hp
        refine h.startAttempt (.wake t) hr (by rw [hp]; simp) rfl rfl rfl rfl rfl s1 s2 s4 (.inr ?_)
        simp only; omega
      · exact hnop _
    · exact hnop _
  | resume t =>
    simp only [World.step]
    split
    · rename_i r hr
      split
      · rename_i f ex cr hp
        have hR := h.reqs t r hr
        obtain ⟨init, w1, w2, w3, w4, w5, w6, w7, w8⟩ := hR.waiting f ex cr hp
        have hmid : Mid w.p (es ++ [.resume t]) t r init f :=
          ⟨List.mem_append_left _ hR.called, hR.order, hR.mine, hR.sleeps, w1, w2, w3, w4, w5⟩
        have own : ∀ r', r'.mine = r.mine → r'.code = r.code → r'.data = r.data →
            w.p.futs[f]? ≠ some .pending → ReqOk w.p (es ++ [.resume t]) t r' →
            WorldOk (es ++ [.resume t]) (w.setReq t r') := by
          intro r' a b c hnp d
          have := h.own (.resume t) hr (.refl _) rfl (fun _ _ => rfl) a (fun _ hn => hn) ?_ ⟨b, c⟩ rfl d
          · exact this
          · intro n hn hpn
            rw [hp] at hn
            simp only [Phase.waiting.injEq] at hn
            rw [← hn.1] at hpn; exact absurd hpn hnp
        split
        · exact hnop _
        · rename_i hnp
          split
          · rename_i hcr
            obtain ⟨a, b, c⟩ := onCancelled_fields r w.p.connected
            exact own _ a b c hnp (hmid.onCancelled (.inl (List.mem_append_left _ (w7 hcr).1)))
          · rename_i hcr
            split
            · rename_i hex
              obtain ⟨a, b, c⟩ := onTimeout_fields r w.p.futs[f]?
              refine own _ a b c hnp ?_
              have hov := (w6 hex).2
              unfold Req.onTimeout
              split
              · rename_i m hm; exact hmid.onResult m hm
              · rename_i hm
                have hcan : w.p.futs[f]? = some .cancelled := by
                  rcases hov with hov | ⟨m, hov⟩
                  · exact hov
                  · exact absurd hov (hm m)
                refine hmid.endAttempt _ (.inl hcan) ?_
                intro hlast
                exact .inr ⟨hlast, init, f, w1, hcan, List.mem_append_left _ (w6 hex).1⟩
            · rename_i hex
              split
              · rename_i m hm
                obtain ⟨a, b, c⟩ := onResult_fields r m
                exact own _ a b c hnp (hmid.onResult m hm)
              · rename_i hm
                obtain ⟨a, b, c⟩ := onCancelled_fields r w.p.connected
                refine own _ a b c hnp (hmid.onCancelled (.inr ?_))
                have hfl := (hR.mine f (by rw [w1]; simp)).1
                apply w8 (by simpa using hex) (by simpa using hcr)
                cases hs : w.p.futs[f]? with
                | none => rw [List.getElem?_eq_none_iff] at hs; omega
                | some s =>
                  cases s with
                  | pending => exact absurd hs hnp
                  | result m => exact absurd hs (hm m)
                  | cancelled => rfl
      · exact hnop _
    · exact hnop _
  | timeout t =>
    simp only [World.step]
    split
    · rename_i r hr
      split
      · rename_i f cr hp
        have hR := h.reqs t r hr
        obtain ⟨init, w1, w2, w3, w4, w5, w6, w7, w8⟩ := hR.waiting f false cr hp
        have hfm : f ∈ r.mine := by rw [w1]; simp
        have hfl := (hR.mine f hfm).1
        have hover : Over (w.p.cancelFut f) f := by
          unfold Over
          rw [cancelFut_futs]
          cases hs : w.p.futs[f]? with
          | none => rw [List.getElem?_eq_none_iff] at hs; omega
          | some s => cases s <;> simp
        have hlat := (hcancelProto f).later
        refine h.own (.timeout t) hr (hcancelProto f) (cancelFut_length _ _) ?_ rfl ?_ ?_ ⟨rfl, rfl⟩ ?_ ?_
        · intro g hg; rw [cancelFut_futs, if_neg]; rintro ⟨rfl, -⟩; exact hg hfm
        · intro n hn; rw [cancelFut_futs] at hn; split at hn
          · simp at hn
          · exact hn
        · intro n hn hpn
          rw [hp] at hn
          simp only [Phase.waiting.injEq] at hn
          rw [← hn.1] at hpn; exact absurd hpn hover.not_pending
        · rw [cancelFut_eq]
        · have hfail : ∀ g ∈ init, Failed (w.p.cancelFut f) r.code g := by
            intro g hg
            rcases w5 g hg with hg | ⟨m, hg, hm⟩
            · exact .inl (hlat.cancelled g hg)
            · exact .inr ⟨m, hlat.result g m hg, hm⟩
          constructor
          · exact List.mem_append_left _ hR.called
          · exact hR.order
          · intro g hg
            obtain ⟨h1, h2⟩ := hR.mine g hg
            exact ⟨by rw [cancelFut_length]; exact h1, hlat.calls g _ h2⟩
          · exact hR.sleeps
          · simp
          · intro f' ex' cr' hph
            simp only [Phase.waiting.injEq] at hph
            obtain ⟨a1, a2, a3⟩ := hph
            subst a1 a2 a3
            refine ⟨init, w1, w2, w3, w4, hfail, fun _ => ⟨by simp, hover⟩,
              fun hc => ⟨List.mem_append_left _ (w7 hc).1, hover⟩, by simp⟩
          · simp
          · simp
          · simp
          · simp
      · exact hnop _
    · exact hnop _
  | cancel t =>
    simp only [World.step]
    split
    · rename_i r hr
      have hR := h.reqs t r hr
      split
      · rename_i hp
        obtain ⟨s1, s2, s3⟩ := hR.start hp
        refine h.own (.cancel t) hr (.refl _) rfl (fun _ _ => rfl) rfl (fun _ hn => hn) (by rw [hp]; simp)
          ⟨rfl, rfl⟩ rfl ?_
        constructor
        · exact List.mem_append_left _ hR.called
        · exact hR.order
        · exact hR.mine
        · exact hR.sleeps
        · simp
        · simp
        · simp
        · intro o _; simp only; rw [s1, s3]; simp
        · intro o _; simp only; rw [s1]; simp
        · intro o ho
          simp only [Phase.done.injEq] at ho
          subst ho
          simp [OutcomeOk]
      · rename_i f ex cr hp
        obtain ⟨init, w1, w2, w3, w4, w5, w6, w7, w8⟩ := hR.waiting f ex cr hp
        have hfm : f ∈ r.mine := by rw [w1]; simp
        have hfl := (hR.mine f hfm).1
        have hover : Over (w.p.cancelFut f) f := by
          unfold Over
          rw [cancelFut_futs]
          cases hs : w.p.futs[f]? with
          | none => rw [List.getElem?_eq_none_iff] at hs; omega
          | some s => cases s <;> simp
        have hlat := (hcancelProto f).later
        refine h.own (.cancel t) hr (hcancelProto f) (cancelFut_length _ _) ?_ rfl ?_ ?_ ⟨rfl, rfl⟩ ?_ ?_
        · intro g hg; rw [cancelFut_futs, if_neg]; rintro ⟨rfl, -⟩; exact hg hfm
        · intro n hn; rw [cancelFut_futs] at hn; split at hn
          · simp at hn
          · exact hn
        · intro n hn hpn
          rw [hp] at hn
          simp only [Phase.waiting.injEq] at hn
          rw [← hn.1] at hpn; exact absurd hpn hover.not_pending
        · rw [cancelFut_eq]
        · have hfail : ∀ g ∈ init, Failed (w.p.cancelFut f) r.code g := by
            intro g hg
            rcases w5 g hg with hg | ⟨m, hg, hm⟩
            · exact .inl (hlat.cancelled g hg)
            · exact .inr ⟨m, hlat.result g m hg, hm⟩
          constructor
          · exact List.mem_append_left _ hR.called
          · exact hR.order
          · intro g hg
            obtain ⟨h1, h2⟩ := hR.mine g hg
            exact ⟨by rw [cancelFut_length]; exact h1, hlat.calls g _ h2⟩
          · exact hR.sleeps
          · simp
          · intro f' ex' cr' hph
            simp only [Phase.waiting.injEq] at hph
            obtain ⟨a1, a2, a3⟩ := hph
            subst a1 a2 a3
            refine ⟨init, w1, w2, w3, w4, hfail, fun hx => ⟨List.mem_append_left _ (w6 hx).1, hover⟩,
              fun hc => ⟨by simp, hover⟩, by simp⟩
          · simp
          · simp
          · simp
          · simp
      · rename_i hp
        obtain ⟨s1, s2, s3, s4⟩ := hR.sleeping hp
        refine h.own (.cancel t) hr (.refl _) rfl (fun _ _ => rfl) rfl (fun _ hn => hn) (by rw [hp]; simp)
          ⟨rfl, rfl⟩ rfl ?_
        constructor
        · exact List.mem_append_left _ hR.called
        · exact hR.order
        · exact hR.mine
        · exact hR.sleeps
        · simp
        · simp
        · simp
        · intro o _; simp only; refine ⟨by omega, by omega, .inr ⟨by omega, by omega⟩⟩
        · intro o _ g hg; exact s4 g (List.dropLast_subset _ hg)
        · intro o ho
          simp only [Phase.done.injEq] at ho
          subst ho
          simp [OutcomeOk]
      · exact hnop _
    · exact hnop _
  | data c =>
    simp only [World.step]
    have hs := dataReceived_steps w.p c
    have aux : ∀ (ms : List Msg) (p : Proto), InvIds p →
        (p.dispatchAll ms).1.connected = p.connected ∧ (p.dispatchAll ms).1.tclosing = p.tclosing ∧
        (p.dispatchAll ms).1.closed = p.closed ∧
        (p.dispatchAll ms).1.futs.length = p.futs.length ∧
        (∀ n : Nat, (p.dispatchAll ms).1.futs[n]? = some .pending → p.futs[n]? = some .pending) ∧
        (∀ n : Nat, (p.dispatchAll ms).1.futs[n]? = some .cancelled → p.futs[n]? = some .cancelled) := by
      intro ms
      induction ms with
      | nil => intro p _; exact ⟨rfl, rfl, rfl, rfl, fun _ h => h, fun _ h => h⟩
      | cons m ms ih =>
        intro p hp
        have h1 := dispatch_none hp m
        have h2 := hp.dispatch m
        obtain ⟨futs, coll, spawned, recv, fates, e, hc⟩ := dispatch_spec p m
        have hone : futs.length = p.futs.length ∧
            (∀ n : Nat, futs[n]? = some .pending → p.futs[n]? = some .pending) ∧
            (∀ n : Nat, futs[n]? = some .cancelled → p.futs[n]? = some .cancelled) := by
          rcases hc with ⟨f, -, hpf, -, hf, -⟩ | ⟨-, hf, -⟩ | ⟨f, -, -, -, -, hf, -⟩
          · subst hf
            refine ⟨by simp, ?_, ?_⟩ <;>
            · intro n hn; rw [List.getElem?_set] at hn; split at hn
              · split at hn <;> simp at hn
              · exact hn
          · subst hf; exact ⟨rfl, fun _ h => h, fun _ h => h⟩
          · subst hf; exact ⟨rfl, fun _ h => h, fun _ h => h⟩
        unfold Proto.dispatchAll
        rcases hd : p.dispatch m with ⟨q, _ | er⟩
        · rw [hd] at h2 e
          simp only at e
          obtain ⟨i1, i2, i3, i4, i5, i6⟩ := ih q h2
          simp only
          rw [i1, i2, i3, i4]
          rw [e] at i5 i6 ⊢
          exact ⟨rfl, rfl, rfl, hone.1, fun n hn => hone.2.1 n (i5 n hn), fun n hn => hone.2.2 n (i6 n hn)⟩
        · rw [hd] at h1; simp at h1
    cases hcl : w.p.closing
    · obtain ⟨ms, fs, tl, e, -⟩ := dataReceived_eq w.p c hcl
      obtain ⟨i1, i2, i3, i4, i5, i6⟩ := aux ms { w.p with buff := tl } (h.ids.buff tl)
      rw [e] at hs ⊢
      refine h.same (.data c) (w' := { w with p := _ }) hs rfl i4 i5 (fun f hf => .inl (i6 f hf)) ?_ ?_ (fun hc => hs.later.closing (h.closers hc))
      · intro hc; simp only; rw [i1]; exact h.cleanups hc
      · intro hc; simp only at hc ⊢; rw [i1] at hc; rw [i2, i3]; exact h.closed hc
    · have : (w.p.dataReceived c).1 = w.p := by unfold Proto.dataReceived; rw [hcl]; rfl
      rw [this]; exact hnop _
  | lost =>
    simp only [World.step]
    split
    · have e : w.p.connectionLost.futs = w.p.futs ∧ w.p.connectionLost.connected = false := by
        simp only [Proto.connectionLost]; rw [stopKeepalive_eq]; exact ⟨rfl, rfl⟩
      refine h.same .lost (w' := { w with p := _, cleanups := _ }) (.one (.lost _)) rfl
        (by simp only; rw [e.1]) (by simp only; rw [e.1]; exact fun _ h => h)
        (by simp only; rw [e.1]; exact fun _ h => .inl h) (fun _ => e.2) (fun _ => ⟨rfl, rfl⟩) (fun hc => (PSteps.one (.lost w.p)).later.closing (h.closers hc))
    · exact hnop _
  | cleanup =>
    simp only [World.step]
    split
    · rename_i hpos
      obtain ⟨e, hl, hg⟩ := cancelAll_spec w.p
      have e1 : w.p.cancelAll.connected = w.p.connected := by rw [e]
      have e2 : w.p.cancelAll.tclosing = w.p.tclosing ∧ w.p.cancelAll.closed = w.p.closed := by
        rw [e]; exact ⟨rfl, rfl⟩
      refine h.same .cleanup (w' := { w with p := _, cleanups := _ }) (.one (.cancelAll _)) rfl hl ?_ ?_ ?_ ?_ (fun hc => (PSteps.one (.cancelAll w.p)).later.closing (h.closers hc))
      · intro n hn; simp only at hn; rw [hg] at hn; split at hn
        · simp at hn
        · exact hn
      · intro f _; right; right; simp only; rw [e1]; exact h.cleanups hpos
      · intro _; simp only; rw [e1]; exact h.cleanups hpos
      · intro _; simp only; rw [e2.1, e2.2]; exact h.closed (h.cleanups hpos)
    · exact hnop _
  | peerClose => exact hquiet .peerClose { w.p with tclosing := true } (.one (.tclose _)) rfl rfl
  | close force =>
    have hs := step_steps w (.close force)
    have hconn : (w.step (.close force)).p.connected = w.p.connected := by
      simp only [World.step, World.closeTail]
      split <;> split <;> first | rfl | (simp only; rw [(cancelAll_spec _).1])
    have hclosing : (w.step (.close force)).p.closing = true := by
      simp only [World.step, World.closeTail]
      split <;> split <;> first | rfl | (simp only; rw [(cancelAll_spec _).1])
    have hreqs : (w.step (.close force)).reqs = w.reqs := by
      simp only [World.step, World.closeTail]
      split <;> rfl
    have hcu : (w.step (.close force)).cleanups = w.cleanups := by
      simp only [World.step, World.closeTail]
      split <;> rfl
    obtain ⟨e, hl, hg⟩ := cancelAll_spec ({ w.p with closing := true } : Proto)
    have hfuts : (w.step (.close force)).p.futs = w.p.futs ∨
        (w.step (.close force)).p.futs = ({ w.p with closing := true } : Proto).cancelAll.futs := by
      simp only [World.step, World.closeTail]
      split <;> split <;> first | exact .inl rfl | exact .inr rfl
    refine h.same (.close force) hs hreqs ?_ ?_ (fun _ _ => .inr (.inl hclosing)) ?_ ?_ (fun _ => hclosing)
    · rcases hfuts with hf | hf
      · rw [hf]
      · rw [hf, hl]
    · intro n hn
      rcases hfuts with hf | hf
      · rw [hf] at hn; exact hn
      · rw [hf, hg] at hn; split at hn
        · simp at hn
        · exact hn
    · rw [hcu, hconn]; exact h.cleanups
    · intro hc; rw [hconn] at hc
      exact ⟨hs.later.tclosing (h.closed hc).1, hs.later.closed (h.closed hc).2⟩
  | closeResume c =>
    have hne : ∀ x : Closer, w.closers.set c x ≠ [] → w.p.closing = true := fun x hx => h.closers (fun he => hx (by rw [he]; rfl))
    simp only [World.step, World.closeTail]
    split
    · split
      · exact h.same _ (w' := { w with p := _, closers := _ }) (.one (.tclose _)) rfl rfl (fun _ hn => hn) (fun f hf => .inl hf) h.cleanups
          (fun hc => ⟨rfl, (h.closed hc).2⟩) (hne _)
      · exact hnop _
    · exact hnop _
  | closeFinish c =>
    have hne : ∀ x : Closer, w.closers.set c x ≠ [] → w.p.closing = true := fun x hx => h.closers (fun he => hx (by rw [he]; rfl))
    simp only [World.step]
    split
    · split
      · exact h.same _ (w' := { w with closers := _ }) (.refl _) rfl rfl (fun _ hn => hn) (fun f hf => .inl hf) h.cleanups h.closed (hne _)
      · split
        · exact h.same _ (w' := { w with closers := _ }) (.refl _) rfl rfl (fun _ hn => hn) (fun f hf => .inl hf) h.cleanups h.closed (hne _)
        · exact hnop _
    · exact hnop _
  | closeCancel c =>
    have hne : ∀ x : Closer, w.closers.set c x ≠ [] → w.p.closing = true := fun x hx => h.closers (fun he => hx (by rw [he]; rfl))
    simp only [World.step]
    split
    · rename_i children hg
      have hcl : w.p.closing = true := h.closers (fun he => by rw [he] at hg; simp at hg)
      have hs := cancelFuts_steps children w.p
      obtain ⟨e, hl, hg⟩ := foldl_cancelFut children w.p
      have e1 : (children.foldl Proto.cancelFut w.p).connected = w.p.connected := by rw [e]
      refine h.same _ (w' := { w with p := _ }) hs rfl hl ?_ ?_ ?_ ?_ ?_
      · intro n hn; simp only at hn; rw [hg] at hn; split at hn
        · simp at hn
        · exact hn
      · exact fun _ _ => .inr (.inl (hs.later.closing hcl))
      · intro hc; simp only; rw [e1]; exact h.cleanups hc
      · intro hc
        simp only at hc; rw [e1] at hc
        exact ⟨hs.later.tclosing (h.closed hc).1, hs.later.closed (h.closed hc).2⟩
      · exact fun _ => hs.later.closing hcl
    · exact h.same _ (w' := { w with closers := _, spoiled := _ }) (.refl _) rfl rfl (fun _ hn => hn) (fun f hf => .inl hf) h.cleanups h.closed (hne _)
    · exact hnop _
  | register c hh => exact hquiet _ _ (.one (.setCbs _ _)) rfl rfl
  | unregister c => exact hquiet _ _ (.one (.setCbs _ _)) rfl rfl
  | unregisterAll => exact hquiet _ _ (.one (.setCbs _ _)) rfl rfl
  | enableKeepalive a => exact hquiet _ _ (.one (.enable _ _)) rfl rfl
  | disableKeepalive =>
    refine hquiet _ _ (.one (.disable _)) ?_ ?_ <;>
      (simp only [Proto.disableKeepalive]; rw [stopKeepalive_eq])
  | timerFire i =>
    refine hquiet _ _ (.one (.fire _ _)) ?_ ?_ <;> (simp only [Proto.timerFire]; split <;> rfl)

theorem worldOk (es : List Event) : WorldOk es (World.init.run es) := by
  have key : ∀ rs : List Event, WorldOk rs.reverse (World.init.run rs.reverse) := by
    intro rs
    induction rs with
    | nil => exact .init
    | cons e rs ih =>
      rw [List.reverse_cons, run_append]
      exact ih.step e
  have := key es.reverse
  rwa [List.reverse_reverse] at this

theorem startAttempt_spoiled (w : World) (t : Nat) (r : Req) : (w.startAttempt t r).spoiled = w.spoiled := by
  simp only [World.startAttempt, World.setReq]
  repeat' (first | rfl | split)

theorem step_spoiled (w : World) (e : Event) (h : (w.step e).spoiled = true) : w.spoiled = true ∨ ∃ c, e = .closeCancel c := by
  cases e with
  | closeCancel c => exact .inr ⟨c, rfl⟩
  | run t =>
    left
    simp only [World.step] at h
    repeat' (first | exact h | (rw [startAttempt_spoiled] at h; exact h) | split at h)
  | wake t =>
    left
    simp only [World.step] at h
    repeat' (first | exact h | (rw [startAttempt_spoiled] at h; exact h) | split at h)
  | _ =>
    left
    first
    | exact h
    | (simp only [World.step, World.setReq, World.closeTail] at h
       repeat' (first | exact h | split at h))

/-- `_closed` is only cancelled by cancelling a task that awaits it. -/
theorem spoiled_cancelled (es : List Event) (h : (World.init.run es).spoiled = true) : ∃ c, .closeCancel c ∈ es := by
  have key : ∀ rs : List Event, (World.init.run rs.reverse).spoiled = true → ∃ c, .closeCancel c ∈ rs.reverse := by
    intro rs
    induction rs with
    | nil => intro h; simp [World.run, World.init] at h
    | cons e rs ih =>
      intro h
      rw [List.reverse_cons, run_append] at h
      rcases step_spoiled _ e h with h | ⟨c, rfl⟩
      · obtain ⟨c, hc⟩ := ih h
        exact ⟨c, by rw [List.reverse_cons]; exact List.mem_append_left _ hc⟩
      · exact ⟨c, by rw [List.reverse_cons]; simp⟩
  have := key es.reverse
  rw [List.reverse_reverse] at this
  exact this h

end SL
