import Verif.Lemmas.Safe
import Verif.Spec.Subs
/-!
# The table of listeners
-/
set_option linter.unusedVariables false

namespace SL

theorem snoc_ind {α : Type} {P : List α → Prop} (h0 : P []) (hs : ∀ l a, P l → P (l ++ [a])) (l : List α) : P l := by
  have : ∀ l : List α, P l.reverse := by
    intro l
    induction l with
    | nil => exact h0
    | cons a l ih => rw [List.reverse_cons]; exact hs _ _ ih
  have := this l.reverse
  rwa [List.reverse_reverse] at this

/-- The listeners and the set objects. -/
abbrev Table := List (Nat × Nat) × List (List Nat)

def Gw.table (g : Gw) : Table := (g.listeners, g.sets)

def Table.on (T : Table) (code cb : Nat) : Prop := ∃ s l, aget code T.1 = some s ∧ T.2[s]? = some l ∧ cb ∈ l

theorem listening_table (g : Gw) (code cb : Nat) : Listening g code cb ↔ g.table.on code cb := Iff.rfl

/-- `addListener` on the table. -/
def Table.add (T : Table) (code cb : Nat) : Table :=
  match aget code T.1 with
  | some s => (T.1, T.2.modify s (fun l => if cb ∈ l then l else l ++ [cb]))
  | none => (T.1 ++ [(code, T.2.length)], T.2 ++ [[cb]])

/-- `unsubscribe` on the table. -/
def Table.del (T : Table) (u : Sub) : Table :=
  match T.2[u.set]? with
  | some l => if u.cb ∈ l then (if l.erase u.cb = [] then adel u.code T.1 else T.1, T.2.set u.set (l.erase u.cb)) else T
  | none => T

theorem table_add (g : Gw) (code cb : Nat) : (g.addListener code cb).2.table = g.table.add code cb := by
  simp only [Gw.addListener, Table.add, Gw.table]
  cases aget code g.listeners <;> rfl

theorem adel_none {V : Type} (k : Nat) : ∀ (l : List (Nat × V)), aget k l = none → adel k l = l
  | [], _ => rfl
  | (k', v) :: t, h => by
    simp only [aget] at h
    split at h
    · cases h
    · rename_i hk
      simp only [adel, if_neg hk, adel_none k t h]

theorem dropCode_table (g : Gw) (code : Nat) : (g.dropCode code).table = g.table := by
  simp only [Gw.dropCode]
  repeat' split
  all_goals rfl

theorem table_del (g : Gw) (u : Sub) : (g.unsubscribe u).table = g.table.del u := by
  simp only [Gw.unsubscribe, Table.del, Gw.table]
  cases hs : g.sets[u.set]? with
  | none => rfl
  | some l =>
    simp only
    by_cases hc : u.cb ∈ l
    · simp only [hc, if_true]
      by_cases he : l.erase u.cb = []
      · simp only [he, List.isEmpty_nil, if_true]
        split
        · exact dropCode_table _ _
        · rename_i hn
          have : aget u.code g.listeners = none := by
            change ¬ (aget u.code g.listeners).isSome = true at hn
            simpa using hn
          rw [adel_none _ _ this]
          rfl
      · have : (l.erase u.cb).isEmpty = false := by simpa using he
        simp only [this, he, if_false]
        rfl
    · simp only [hc, if_false]

/-- What is true of the table in every honest history. -/
structure Table.Inv (T : Table) : Prop where
  ref : ∀ (c s : Nat), aget c T.1 = some s → ∃ l, T.2[s]? = some l ∧ l ≠ []
  inj : ∀ (c c' s : Nat), aget c T.1 = some s → aget c' T.1 = some s → c = c'
  back : ∀ (s : Nat) (l : List Nat), T.2[s]? = some l → l ≠ [] → ∃ c, aget c T.1 = some s
  nodup : ∀ (s : Nat) (l : List Nat), T.2[s]? = some l → l.Nodup

/-- The set object `s` was made for `code`. -/
def Table.Own (T : Table) (code s : Nat) : Prop := s < T.2.length ∧ ∀ c, aget c T.1 = some s → c = code

theorem aget_append {V : Type} (k : Nat) (x : Nat × V) : ∀ (l : List (Nat × V)),
    aget k (l ++ [x]) = match aget k l with
      | some v => some v
      | none => if x.1 = k then some x.2 else none
  | [] => by obtain ⟨a, b⟩ := x; simp [aget]
  | (k', v) :: t => by
    simp only [List.cons_append, aget]
    by_cases h : k' = k
    · simp [h]
    · simp only [if_neg h]
      exact aget_append k x t

theorem aget_add (T : Table) (code cb c : Nat) : aget c (T.add code cb).1 =
    if c = code then some ((aget code T.1).getD T.2.length) else aget c T.1 := by
  simp only [Table.add]
  cases h : aget code T.1 with
  | some s =>
    simp only [Option.getD_some]
    split
    · rename_i hc; rw [hc, h]
    · rfl
  | none =>
    simp only [Option.getD_none, aget_append]
    by_cases hc : c = code
    · subst hc; simp [h]
    · simp only [if_neg hc]
      cases aget c T.1 with
      | none => simp only [if_neg (Ne.symm hc)]
      | some v => rfl

/-- Where the new listener goes. -/
def Table.slot (T : Table) (code : Nat) : Nat := (aget code T.1).getD T.2.length

theorem sets_add {T : Table} (h : T.Inv) (code cb s : Nat) : (T.add code cb).2[s]? =
    if s = T.slot code then some (match T.2[s]? with | some l => if cb ∈ l then l else l ++ [cb] | none => [cb]) else T.2[s]? := by
  by_cases hc : aget code T.1 = none
  · have e1 : T.add code cb = (T.1 ++ [(code, T.2.length)], T.2 ++ [[cb]]) := by simp only [Table.add, hc]
    have e2 : T.slot code = T.2.length := by simp only [Table.slot, hc, Option.getD_none]
    rw [e1, e2]
    simp only
    by_cases hs : s = T.2.length
    · subst hs; simp
    · simp only [if_neg hs]
      rcases Nat.lt_or_gt_of_ne hs with hlt | hgt
      · rw [List.getElem?_append_left hlt]
      · rw [List.getElem?_eq_none (by simp; omega), List.getElem?_eq_none (by omega)]
  · obtain ⟨i, hc⟩ := Option.ne_none_iff_exists'.1 hc
    obtain ⟨l, hl, _⟩ := h.ref _ _ hc
    have e1 : T.add code cb = (T.1, T.2.modify i (fun l => if cb ∈ l then l else l ++ [cb])) := by simp only [Table.add, hc]
    have e2 : T.slot code = i := by simp only [Table.slot, hc, Option.getD_some]
    rw [e1, e2]
    simp only [List.getElem?_modify]
    by_cases hs : s = i
    · subst hs; simp [hl]
    · simp only [if_neg hs, if_neg (Ne.symm hs)]
      cases T.2[s]? <;> rfl

theorem slot_on {T : Table} (h : T.Inv) {code c : Nat} (hc : aget c T.1 = some (T.slot code)) : c = code := by
  simp only [Table.slot] at hc
  cases ha : aget code T.1 with
  | some i =>
    rw [ha] at hc
    exact h.inj _ _ _ hc ha
  | none =>
    rw [ha] at hc
    obtain ⟨l, hl, _⟩ := h.ref _ _ hc
    simp at hl

theorem slot_set {T : Table} (h : T.Inv) {code : Nat} {l : List Nat} (hl : T.2[T.slot code]? = some l) : aget code T.1 = some (T.slot code) := by
  simp only [Table.slot] at hl ⊢
  cases ha : aget code T.1 with
  | some i => rfl
  | none =>
    rw [ha] at hl
    simp at hl

theorem inv_add {T : Table} (h : T.Inv) (code cb : Nat) : (T.add code cb).Inv := by
  have e := sets_add h code cb
  have a := aget_add T code cb
  refine ⟨?_, ?_, ?_, ?_⟩
  · intro c s hc
    rw [a] at hc
    by_cases hcc : c = code
    · rw [if_pos hcc] at hc
      have hs : s = T.slot code := (Option.some.inj hc).symm
      rw [e, if_pos hs]
      refine ⟨_, rfl, ?_⟩
      cases T.2[s]? with
      | none => simp
      | some l =>
        simp only
        split
        · rename_i hm; intro e; rw [e] at hm; cases hm
        · simp
    · rw [if_neg hcc] at hc
      have hs : s ≠ T.slot code := fun hs => hcc (slot_on h (hs ▸ hc))
      rw [e, if_neg hs]
      exact h.ref _ _ hc
  · intro c c' s h1 h2
    rw [a] at h1 h2
    by_cases hc : c = code
    · by_cases hc' : c' = code
      · rw [hc, hc']
      · rw [if_pos hc] at h1
        rw [if_neg hc'] at h2
        have hs : s = T.slot code := (Option.some.inj h1).symm
        exact absurd (slot_on h (hs ▸ h2)) hc'
    · by_cases hc' : c' = code
      · rw [if_neg hc] at h1
        rw [if_pos hc'] at h2
        have hs : s = T.slot code := (Option.some.inj h2).symm
        exact absurd (slot_on h (hs ▸ h1)) hc
      · rw [if_neg hc] at h1
        rw [if_neg hc'] at h2
        exact h.inj _ _ _ h1 h2
  · intro s l hl hne
    by_cases hs : s = T.slot code
    · refine ⟨code, ?_⟩
      rw [a, if_pos rfl, hs]
      rfl
    · rw [e, if_neg hs] at hl
      obtain ⟨c, hc⟩ := h.back s l hl hne
      refine ⟨c, ?_⟩
      rw [a]
      by_cases hcc : c = code
      · subst hcc
        exact absurd (by simp only [Table.slot, hc, Option.getD_some]) hs
      · rw [if_neg hcc]; exact hc
  · intro s l hl
    rw [e] at hl
    split at hl
    · cases hs : T.2[s]? with
      | none =>
        rw [hs] at hl
        cases hl
        simp
      | some l0 =>
        rw [hs] at hl
        simp only [Option.some.injEq] at hl
        subst hl
        split
        · exact h.nodup _ _ hs
        · rename_i hm
          rw [List.nodup_append]
          refine ⟨h.nodup _ _ hs, by simp, ?_⟩
          intro x hx y hy
          simp only [List.mem_singleton] at hy
          subst hy
          intro e
          exact hm (e ▸ hx)
    · exact h.nodup _ _ hl

theorem on_add {T : Table} (h : T.Inv) (code cb c b : Nat) : (T.add code cb).on c b ↔ T.on c b ∨ c = code ∧ b = cb := by
  have e := sets_add h code cb
  have a := aget_add T code cb
  constructor
  · rintro ⟨s, l, h1, h2, h3⟩
    rw [a] at h1
    by_cases hc : c = code
    · rw [if_pos hc] at h1
      have hs : s = T.slot code := (Option.some.inj h1).symm
      rw [e, if_pos hs] at h2
      cases hl : T.2[s]? with
      | none =>
        rw [hl] at h2
        cases h2
        simp only [List.mem_singleton] at h3
        exact .inr ⟨hc, h3⟩
      | some l0 =>
        rw [hl] at h2
        simp only [Option.some.injEq] at h2
        have hag := slot_set h (hs ▸ hl)
        by_cases hb : b ∈ l0
        · exact .inl ⟨s, l0, by rw [hc, hag, hs], hl, hb⟩
        · rw [← h2] at h3
          split at h3
          · exact absurd h3 hb
          · rcases List.mem_append.1 h3 with h3 | h3
            · exact absurd h3 hb
            · simp only [List.mem_singleton] at h3
              exact .inr ⟨hc, h3⟩
    · rw [if_neg hc] at h1
      have hs : s ≠ T.slot code := fun hs => hc (slot_on h (hs ▸ h1))
      rw [e, if_neg hs] at h2
      exact .inl ⟨s, l, h1, h2, h3⟩
  · rintro (⟨s, l, h1, h2, h3⟩ | ⟨rfl, rfl⟩)
    · by_cases hc : c = code
      · subst hc
        have hs : s = T.slot c := by simp [Table.slot, h1]
        refine ⟨s, if cb ∈ l then l else l ++ [cb], by rw [a, if_pos rfl, hs]; rfl, by rw [e, if_pos hs, h2], ?_⟩
        split
        · exact h3
        · simp [h3]
      · have hs : s ≠ T.slot code := fun hs => hc (slot_on h (hs ▸ h1))
        exact ⟨s, l, by rw [a, if_neg hc, h1], by rw [e, if_neg hs, h2], h3⟩
    · refine ⟨T.slot c, _, by rw [a, if_pos rfl]; rfl, by rw [e, if_pos rfl], ?_⟩
      cases T.2[T.slot c]? with
      | none => simp
      | some l =>
        simp only
        split
        · assumption
        · simp

theorem inv_del {T : Table} (h : T.Inv) {u : Sub} (ho : T.Own u.code u.set) : (T.del u).Inv ∧
    ∀ c b, (T.del u).on c b ↔ T.on c b ∧ ¬ (c = u.code ∧ b = u.cb ∧ aget u.code T.1 = some u.set) := by
  simp only [Table.del]
  cases hs : T.2[u.set]? with
  | none =>
    simp only
    refine ⟨h, fun c b => ⟨fun x => ⟨x, fun ⟨_, _, e⟩ => ?_⟩, fun x => x.1⟩⟩
    obtain ⟨l, hl, _⟩ := h.ref _ _ e
    rw [hs] at hl
    cases hl
  | some l =>
    simp only
    by_cases hm : u.cb ∈ l
    · rw [if_pos hm]
      obtain ⟨c0, hc0⟩ := h.back _ _ hs (fun e => by rw [e] at hm; cases hm)
      have hcu : c0 = u.code := ho.2 _ hc0
      subst hcu
      have hnd := h.nodup _ _ hs
      have hset : ∀ s, (T.2.set u.set (l.erase u.cb))[s]? = if s = u.set then some (l.erase u.cb) else T.2[s]? := by
        intro s
        rw [List.getElem?_set]
        by_cases e : s = u.set
        · subst e; simp [ho.1]
        · simp [e, Ne.symm e]
      have hag : ∀ c s, aget c (if l.erase u.cb = [] then adel u.code T.1 else T.1) = some s →
          aget c T.1 = some s ∧ (c = u.code → l.erase u.cb ≠ []) := by
        intro c s hc
        split at hc
        · rw [aget_adel] at hc
          split at hc
          · cases hc
          · rename_i e
            exact ⟨hc, fun e' => absurd e'.symm e⟩
        · rename_i e
          exact ⟨hc, fun _ => e⟩
      have hga : ∀ c s, aget c T.1 = some s → (c = u.code → l.erase u.cb ≠ []) →
          aget c (if l.erase u.cb = [] then adel u.code T.1 else T.1) = some s := by
        intro c s hc hn
        split
        · rename_i e
          rw [aget_adel, if_neg (fun e' => hn e'.symm e)]
          exact hc
        · exact hc
      refine ⟨⟨?_, ?_, ?_, ?_⟩, ?_⟩
      · intro c s hc
        obtain ⟨h1, h2⟩ := hag c s hc
        simp only [hset]
        by_cases e : s = u.set
        · rw [if_pos e]
          exact ⟨_, rfl, h2 (ho.2 _ (e ▸ h1))⟩
        · rw [if_neg e]
          exact h.ref _ _ h1
      · intro c c' s h1 h2
        exact h.inj _ _ _ (hag _ _ h1).1 (hag _ _ h2).1
      · intro s l' hl hne
        simp only [hset] at hl
        by_cases e : s = u.set
        · rw [if_pos e] at hl
          cases hl
          exact ⟨u.code, by rw [e]; exact hga _ _ hc0 (fun _ => hne)⟩
        · rw [if_neg e] at hl
          obtain ⟨c, hc⟩ := h.back _ _ hl hne
          refine ⟨c, hga _ _ hc (fun e' => ?_)⟩
          subst e'
          rw [hc0] at hc
          exact absurd (Option.some.inj hc).symm e
      · intro s l' hl
        simp only [hset] at hl
        split at hl
        · cases hl
          exact hnd.sublist List.erase_sublist
        · exact h.nodup _ _ hl
      · intro c b
        constructor
        · rintro ⟨s, l', h1, h2, h3⟩
          obtain ⟨h4, h5⟩ := hag _ _ h1
          simp only [hset] at h2
          split at h2
          · rename_i e
            cases h2
            refine ⟨⟨s, l, h4, e ▸ hs, List.mem_of_mem_erase h3⟩, ?_⟩
            rintro ⟨_, hb, _⟩
            rw [hb, List.Nodup.mem_erase_iff hnd] at h3
            exact h3.1 rfl
          · rename_i e
            refine ⟨⟨s, l', h4, h2, h3⟩, ?_⟩
            rintro ⟨hc, _, he⟩
            rw [hc, hc0] at h4
            exact e (Option.some.inj h4).symm
        · rintro ⟨⟨s, l', h1, h2, h3⟩, hn⟩
          by_cases e : s = u.set
          · subst e
            rw [hs] at h2
            cases h2
            have hcc := ho.2 _ h1
            have hb : b ≠ u.cb := fun hb => hn ⟨hcc, hb, hc0⟩
            have hmem : b ∈ l.erase u.cb := by rw [List.Nodup.mem_erase_iff hnd]; exact ⟨hb, h3⟩
            exact ⟨u.set, l.erase u.cb, hga _ _ h1 (fun _ e => by rw [e] at hmem; cases hmem), by simp only [hset, if_true], hmem⟩
          · refine ⟨s, l', hga _ _ h1 (fun e' => ?_), by simp only [hset, if_neg e, h2], h3⟩
            subst e'
            rw [hc0] at h1
            exact absurd (Option.some.inj h1).symm e
    · rw [if_neg hm]
      refine ⟨h, fun c b => ⟨fun x => ⟨x, ?_⟩, fun x => x.1⟩⟩
      rintro ⟨rfl, rfl, e⟩
      obtain ⟨s, l', h1, h2, h3⟩ := x
      rw [e] at h1
      cases h1
      rw [hs] at h2
      cases h2
      exact hm h3

theorem own_add {T : Table} (code cb : Nat) {k s : Nat} (h : T.Own k s) : (T.add code cb).Own k s := by
  refine ⟨?_, ?_⟩
  · simp only [Table.add]
    split
    · simpa using h.1
    · simp only [List.length_append, List.length_singleton]
      exact Nat.lt_succ_of_lt h.1
  · intro c hc
    rw [aget_add] at hc
    split at hc
    · rename_i e
      subst e
      cases ha : aget c T.1 with
      | some i =>
        rw [ha] at hc
        exact h.2 _ (ha.trans hc)
      | none =>
        rw [ha] at hc
        have := h.1
        simp only [Option.getD_none, Option.some.injEq] at hc
        omega
    · exact h.2 _ hc

theorem aget_del {T : Table} {u : Sub} {c s : Nat} (hc : aget c (T.del u).1 = some s) : aget c T.1 = some s := by
  simp only [Table.del] at hc
  split at hc
  · split at hc
    · simp only at hc
      split at hc
      · rw [aget_adel] at hc
        split at hc
        · cases hc
        · exact hc
      · exact hc
    · exact hc
  · exact hc

theorem len_del (T : Table) (u : Sub) : (T.del u).2.length = T.2.length := by
  simp only [Table.del]
  split
  · split
    · simp
    · rfl
  · rfl

theorem own_del {T : Table} (u : Sub) {k s : Nat} (h : T.Own k s) : (T.del u).Own k s :=
  ⟨by rw [len_del]; exact h.1, fun c hc => h.2 _ (aget_del hc)⟩

/-! ## How the table changes -/

section
variable (E : Env) (clientId maxRetries : Int)

theorem table_kept : Part.Kept (Chg E) Gw.table :=
  ⟨fun f g hf => by cases hf <;> rfl, fun _ _ _ => rfl, fun _ _ _ => rfl, fun _ _ => rfl, fun _ _ => rfl, fun _ => rfl⟩

theorem table_handler (g : Gw) (c : Nat) : (g.runHandler E c).table = g.table := by
  simp only [Gw.runHandler, Gw.commonCallback, Gw.commonCallback.notify]
  repeat' split
  all_goals rfl

theorem table_lost (g : Gw) (c : Nat) (e : Event) : (g.lostCallback c e).table = g.table := by
  simp only [Gw.lostCallback]
  repeat' split
  all_goals rfl

theorem table_retries (g : Gw) (n : Int) : (g.setMaxRetries n).2.table = g.table := by
  simp only [Gw.setMaxRetries]
  split <;> rfl

/-- Nothing but subscribing and unsubscribing changes the table. -/
theorem table_other (es : List Ev) (ev : Ev) (h1 : ∀ cb code, ev ≠ .call (.subscribe cb code)) (h2 : ∀ u, ev ≠ .unsubscribe u) :
    (after E clientId maxRetries (es ++ [ev])).g.table = (after E clientId maxRetries es).g.table := by
  rw [after_snoc]
  by_cases hc : ∃ a, ev = .call (.connect a)
  · obtain ⟨a, rfl⟩ := hc
    simp only [Sys.step, Sys.spawn]
    rcases settle_connect E (after E clientId maxRetries es).tasks.length a (after E clientId maxRetries es).g with
      ⟨_, e⟩ | ⟨_, _, e⟩ | ⟨_, _, k, hk, e⟩ <;> rw [e] <;> rfl
  · exact (Sys.All.step (table_kept E) (reach_all E clientId maxRetries es) ev (fun a e => hc ⟨a, e⟩)
      (fun cb code e _ => absurd e (h1 cb code)) (fun n _ => table_retries _ n) (fun u e => absurd e (h2 u))
      (fun c e => table_lost _ c e) (fun c _ => table_handler E _ c) (fun _ => rfl) (fun _ => rfl) rfl).2

theorem table_subscribe (es : List Ev) (cb code : Nat) :
    (after E clientId maxRetries (es ++ [.call (.subscribe cb code)])).g.table =
      if (after E clientId maxRetries es).g.attached then (after E clientId maxRetries es).g.table.add code cb
      else (after E clientId maxRetries es).g.table := by
  rw [after_snoc]
  refine (settle_subscribe E (table_kept E) _ cb code _).2.trans ?_
  split
  · exact table_add _ _ _
  · rfl

theorem table_unsubscribe (es : List Ev) (u : Sub) :
    (after E clientId maxRetries (es ++ [.unsubscribe u])).g.table = (after E clientId maxRetries es).g.table.del u := by
  rw [after_snoc]
  exact table_del _ u

/-- What kind of change an event makes to the table. -/
theorem table_event (es : List Ev) (ev : Ev) :
    (after E clientId maxRetries (es ++ [ev])).g.table = (after E clientId maxRetries es).g.table ∨
    (∃ cb code, ev = .call (.subscribe cb code) ∧
      (after E clientId maxRetries (es ++ [ev])).g.table = (after E clientId maxRetries es).g.table.add code cb) ∨
    ∃ u, ev = .unsubscribe u ∧ (after E clientId maxRetries (es ++ [ev])).g.table = (after E clientId maxRetries es).g.table.del u := by
  by_cases h1 : ∃ cb code, ev = .call (.subscribe cb code)
  · obtain ⟨cb, code, rfl⟩ := h1
    have := table_subscribe E clientId maxRetries es cb code
    split at this
    · exact .inr (.inl ⟨cb, code, rfl, this⟩)
    · exact .inl this
  · by_cases h2 : ∃ u, ev = .unsubscribe u
    · obtain ⟨u, rfl⟩ := h2
      exact .inr (.inr ⟨u, rfl, table_unsubscribe E clientId maxRetries es u⟩)
    · exact .inl (table_other E clientId maxRetries es ev (fun a b e => h1 ⟨a, b, e⟩) (fun u e => h2 ⟨u, e⟩))

/-- What subscribing returns. -/
theorem returns_what {es1 : List Ev} {cb code : Nat} {es2 : List Ev} {u : Sub} (h : Returns E clientId maxRetries es1 cb code es2 u) :
    (after E clientId maxRetries es1).g.attached = true ∧ u = ⟨code, (after E clientId maxRetries es1).g.table.slot code, cb⟩ := by
  have := call_run (E := E) (clientId := clientId) (maxRetries := maxRetries) (U := False) (X := noX) (I := fun _ => True)
    hc_true (Q := fun h o => ∀ u, o = .ok (.sub (some u)) → (after E clientId maxRetries es1).g.attached = true ∧
      u = ⟨code, ((after E clientId maxRetries es1).g.addListener code cb).1, cb⟩) es1 (.subscribe cb code) es2
    (fun u => u.elim) (fun _ _ _ _ _ _ _ => trivial) trivial trivial ?_
  · have := this.2 _ h u rfl
    refine ⟨this.1, this.2.trans ?_⟩
    congr 1
    simp only [Gw.addListener, Table.slot, Gw.table]
    cases aget code (after E clientId maxRetries es1).g.listeners <;> rfl
  · rintro g rfl s
    refine Co.wp_bind' _ _ _ _ (Co.wp_mono ?_ _ _ _ (wp_subscribe (E := E) hc_true cb code s trivial))
    intro h' o g' hq
    cases o with
    | error e => intro u hr; cases hr
    | ok v =>
      intro u hr
      cases hr
      rcases hq.2.2 _ rfl with ⟨_, e, _⟩ | ⟨ha, e, _⟩
      · cases e
      · exact ⟨ha, Option.some.inj e⟩

theorem own_keeps {es : List Ev} {k s : Nat} (h : (after E clientId maxRetries es).g.table.Own k s) (es2 : List Ev) :
    (after E clientId maxRetries (es ++ es2)).g.table.Own k s := by
  refine snoc_ind (P := fun l => (after E clientId maxRetries (es ++ l)).g.table.Own k s) (by simpa using h) ?_ es2
  · intro l ev ih
    show (after E clientId maxRetries (es ++ (l ++ [ev]))).g.table.Own k s
    rw [← List.append_assoc]
    rcases table_event E clientId maxRetries (es ++ l) ev with e | ⟨cb, code, _, e⟩ | ⟨u, _, e⟩ <;> rw [e]
    · exact ih
    · exact own_add _ _ ih
    · exact own_del _ ih

end

end SL
