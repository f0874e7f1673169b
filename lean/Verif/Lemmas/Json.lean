import Verif.Spec.Export
import Verif.Props.OptionProps
/-! # Reading what was written -/
set_option linter.unusedVariables false

namespace SL

/-! ## Byte strings -/

theorem hexValue_digit : ∀ n : Fin 16, hexValue (hexDigit n.val) = some n.val := by decide

theorem evalBody_reprByte {q : Char} (hq : q = '\'' ∨ q = '"') (b : UInt8) (rest : List Char) :
    evalBody q (reprByte q b ++ rest) = (evalBody q rest).map (b :: ·) := by
  have key : ∀ n : Fin 256, ∀ q ∈ ['\'', '"'],
      (reprByte q (UInt8.ofNat n.val) = ['\\', 'x', hexDigit (n.val / 16), hexDigit (n.val % 16)]) ∨
      (∃ c, escapeByte c = some (UInt8.ofNat n.val) ∧ c ≠ 'x' ∧ reprByte q (UInt8.ofNat n.val) = ['\\', c]) ∨
      (∃ c, c ≠ q ∧ c ≠ '\\' ∧ c ≠ '\n' ∧ c.toNat < 128 ∧ UInt8.ofNat c.toNat = UInt8.ofNat n.val ∧ reprByte q (UInt8.ofNat n.val) = [c]) := by
    intro n q hq
    have h1 : ∀ n : Fin 256, ∀ q ∈ ['\'', '"'],
      (reprByte q (UInt8.ofNat n.val) = ['\\', 'x', hexDigit (n.val / 16), hexDigit (n.val % 16)]) ∨
      (∃ c ∈ ['\\', '\'', '"', 't', 'n', 'r'], escapeByte c = some (UInt8.ofNat n.val) ∧ c ≠ 'x' ∧ reprByte q (UInt8.ofNat n.val) = ['\\', c]) ∨
      (Char.ofNat n.val ≠ q ∧ Char.ofNat n.val ≠ '\\' ∧ Char.ofNat n.val ≠ '\n' ∧ (Char.ofNat n.val).toNat < 128 ∧
        UInt8.ofNat (Char.ofNat n.val).toNat = UInt8.ofNat n.val ∧ reprByte q (UInt8.ofNat n.val) = [Char.ofNat n.val]) := by decide +kernel
    rcases h1 n q hq with h | ⟨c, _, h⟩ | h
    · exact .inl h
    · exact .inr (.inl ⟨c, h⟩)
    · exact .inr (.inr ⟨_, h⟩)
  have hb : b = UInt8.ofNat (⟨b.toNat, b.toNat_lt⟩ : Fin 256).val := by simp
  rcases key ⟨b.toNat, b.toNat_lt⟩ q (by simpa using hq) with h | ⟨c, h1, h2, h3⟩ | ⟨c, h1, h2, h3, h4, h5, h6⟩
  · rw [← hb] at h
    rw [h]
    simp only [List.cons_append, List.nil_append, evalBody]
    have e1 := hexValue_digit ⟨b.toNat / 16, by have := b.toNat_lt; omega⟩
    have e2 := hexValue_digit ⟨b.toNat % 16, by omega⟩
    simp only at e1 e2
    rw [e1, e2]
    simp only
    rw [show 16 * (b.toNat / 16) + b.toNat % 16 = b.toNat by omega]
    simp
  · rw [← hb] at h1 h3
    rw [h3]
    simp only [List.cons_append, List.nil_append]
    rw [evalBody.eq_def]
    split
    · rename_i h; cases h
    · rename_i h; injection h with _ h; injection h with h _; exact absurd h h2
    · rename_i h; injection h with _ h; injection h with h h'; subst h h'; rw [h1]
    · rename_i hx hy h; injection h with h h'; subst h h'; exact (hy _ _ rfl rfl).elim
  · rw [← hb] at h5 h6
    rw [h6]
    simp only [List.cons_append, List.nil_append]
    rw [evalBody.eq_def]
    split
    · rename_i h; cases h
    · rename_i h; injection h with h _; exact absurd h h2
    · rename_i h; injection h with h _; exact absurd h h2
    · rename_i h; injection h with h h'; subst h h'
      rw [if_neg h1, if_neg (by simp only [not_or]; exact ⟨h2, h3, by omega⟩), h5]

theorem evalBody_repr {q : Char} (hq : q = '\'' ∨ q = '"') : ∀ b : Bytes, evalBody q (b.flatMap (reprByte q) ++ [q]) = some b
  | [] => by rcases hq with rfl | rfl <;> simp [evalBody]
  | b :: bs => by
    rw [List.flatMap_cons, List.append_assoc, evalBody_reprByte hq, evalBody_repr hq bs]; rfl

/-- `eval(repr(b)) == b`. -/
theorem evalBytes_repr (b : Bytes) : evalBytes (bytesRepr b) = some b := by
  have hq : reprQuote b = '\'' ∨ reprQuote b = '"' := by unfold reprQuote; split <;> simp
  simp only [bytesRepr, evalBytes, if_pos hq, evalBody_repr hq]

/-! ## Numbers as keys -/

theorem text_nat (n : Nat) : (Key.i n).text.toList = Nat.toDigits 10 n := by
  simp only [Key.text]
  rw [show toString (n : Int) = n.repr from rfl, Nat.toList_repr]

theorem isDigit_range {c : Char} (h : c.isDigit = true) : '0' ≤ c ∧ c ≤ '9' := by
  simpa [Char.isDigit, Char.le_def] using h

theorem digits_ascii {n : Nat} {c : Char} (h : c ∈ Nat.toDigits 10 n) : ('0' ≤ c ∧ c ≤ '9') ∧ c.toNat < 128 := by
  have h1 := isDigit_range (Nat.isDigit_of_mem_toDigits (by omega) (by omega) h)
  refine ⟨h1, ?_⟩
  have := h1.2
  rw [Char.le_def, UInt32.le_iff_toNat_le] at this
  have h9 : ('9').val.toNat = 57 := rfl
  rw [h9] at this
  have : c.toNat = c.val.toNat := rfl
  omega

theorem text_isDigit {U : UnicodeDb} (hU : U.Ascii) (n : Nat) : U.isDigitStr (Key.i n).text.toList = true := by
  rw [text_nat]
  unfold UnicodeDb.isDigitStr
  rw [Bool.and_eq_true, List.all_eq_true]
  refine ⟨by simp [Nat.toDigits_ne_nil], fun c hc => ?_⟩
  have := digits_ascii hc
  exact ((hU c this.2).1).2 this.1

theorem fold_digits {U : UnicodeDb} (hU : U.Ascii) : ∀ (l : List Char), (∀ c ∈ l, ('0' ≤ c ∧ c ≤ '9') ∧ c.toNat < 128) → ∀ a : Nat,
    l.foldl (fun acc c => acc.bind (fun n => (U.decimal c).map (fun d : Nat => n * 10 + (d : Int)))) (some (a : Int)) =
      some ((Nat.ofDigitChars 10 l a : Nat) : Int)
  | [], _, a => by simp
  | c :: l, h, a => by
    have hc := h c (by simp)
    rw [List.foldl_cons, Nat.ofDigitChars_cons]
    simp only [Option.bind_some, (hU c hc.2).2.1 hc.1, Option.map_some]
    rw [← fold_digits hU l (fun c h' => h c (List.mem_cons_of_mem _ h'))]
    congr 2
    have : ('0' : Char).toNat = 48 := rfl
    rw [this]; omega

theorem text_intOf {U : UnicodeDb} (hU : U.Ascii) (n : Nat) (hn : n < 10 ^ 4300) : U.intOf (Key.i n).text.toList = some (n : Int) := by
  rw [text_nat]
  unfold UnicodeDb.intOf
  have hl : (Nat.toDigits 10 n).length ≤ 4300 := (Nat.length_toDigits_le_iff (by omega) (by omega)).2 hn
  rw [if_neg (by omega)]
  have := fold_digits hU (Nat.toDigits 10 n) (fun c h => digits_ascii h) 0
  rw [Nat.ofDigitChars_ten_toDigits] at this
  exact this

/-! ## Dicts -/

/-- A name no hook cares about: it begins with a small letter and is none of the names of a response set. -/
def PlainName (s : String) : Prop := (∃ c l, s.toList = c :: l ∧ 'a' ≤ c ∧ c ≤ 'z') ∧ s ≠ "raw" ∧ s ≠ "decoded"

/-- Objects that may stand under the name "value". -/
def PlainValue : Val → Prop
  | .null | .int _ | .flt _ | .str _ => True
  | .tuple [.int _, .int _, .int _] => True
  | _ => False

mutual
/-- Objects that can be written and read back. -/
def Writable : Val → Prop
  | .tuple _ => False
  | .list l => WritableL l
  | .dict kv => (kv.map (·.1)).Nodup ∧
      ((∀ k ∈ kv.map (·.1), ∃ n : Nat, k = .i n ∧ n < 10 ^ 4300) ∨ (∀ k ∈ kv.map (·.1), ∃ s, k = .s s ∧ PlainName s)) ∧ WritableD kv
  | _ => True
/-- Companion of `Writable`. -/
def WritableL : List Val → Prop
  | [] => True
  | v :: l => Writable v ∧ WritableL l
/-- Companion of `Writable`. -/
def WritableD : List (Key × Val) → Prop
  | [] => True
  | (k, v) :: l => (if k = .s "value" then PlainValue v else Writable v) ∧ WritableD l
end

/-- How an entry comes back before the hooks: a tuple is a list. -/
def softVal : Val → Obj
  | .tuple l => .list (Obj.ofVals l)
  | v => .ofVal v

/-- The items before the hooks. -/
def softItems (kv : List (Key × Val)) : List (Key × Obj) := kv.map (fun e => (.s e.1.text, softVal e.2))

theorem softVal_of {v : Val} (h : ∀ l, v ≠ .tuple l) : softVal v = .ofVal v := by
  cases v <;> first | rfl | exact absurd rfl (h _)

theorem plainValue_load {U : UnicodeDb} {v : Val} (h : PlainValue v) : loadJson U (dumpJson v) = .ok (softVal v) := by
  unfold PlainValue at h
  split at h <;> first | rfl | exact h.elim

theorem aset_append_new {K V : Type} [DecidableEq K] (k : K) (v : V) : ∀ l : List (K × V), k ∉ l.map (·.1) → aset k v l = l ++ [(k, v)]
  | [], _ => rfl
  | (k', v') :: t, h => by
    simp only [List.map_cons, List.mem_cons, not_or] at h
    rw [aset, if_neg (fun e => h.1 e.symm), aset_append_new k v t h.2]; rfl

theorem ofPairs_nodup (l : List (String × Obj)) (h : (l.map (·.1)).Nodup) : ofPairs l = l.map (fun p => (.s p.1, p.2)) := by
  suffices H : ∀ (l : List (String × Obj)) (d : List (Key × Obj)), (l.map (·.1)).Nodup → (∀ p ∈ l, Key.s p.1 ∉ d.map (·.1)) →
      l.foldl (fun d p => aset (.s p.1) p.2 d) d = d ++ l.map (fun p => (.s p.1, p.2)) by
    exact (H l [] h (by simp)).trans (by simp)
  intro l
  induction l with
  | nil => intro d _ _; simp
  | cons p t ih =>
    intro d hn hd
    rw [List.map_cons, List.nodup_cons] at hn
    rw [List.foldl_cons, aset_append_new _ _ _ (hd p (by simp)), ih _ hn.2, List.append_assoc]
    · simp
    · intro q hq hm
      rw [List.map_append, List.mem_append] at hm
      rcases hm with hm | hm
      · exact hd q (by simp [hq]) hm
      · simp only [List.map_cons, List.map_nil, List.mem_singleton] at hm
        injection hm with hm
        exact hn.1 (hm ▸ List.mem_map_of_mem hq)

theorem aget_none_of {V : Type} {k : Key} {l : List (Key × V)} (h : k ∉ l.map (·.1)) : aget k l = none := by
  induction l with
  | nil => rfl
  | cons e t ih =>
    simp only [List.map_cons, List.mem_cons, not_or] at h
    obtain ⟨k', v⟩ := e
    rw [aget, if_neg (fun e => h.1 e.symm), ih h.2]

theorem adel_of_not_mem {V : Type} {k : Key} {l : List (Key × V)} (h : k ∉ l.map (·.1)) : adel k l = l := by
  induction l with
  | nil => rfl
  | cons e t ih =>
    simp only [List.map_cons, List.mem_cons, not_or] at h
    obtain ⟨k', v⟩ := e
    rw [adel, if_neg (fun e => h.1 e.symm), ih h.2]

theorem text_inj {m n : Nat} (h : (Key.i m).text = (Key.i n).text) : m = n := by
  have : Nat.repr m = Nat.repr n := h
  have h1 : Nat.toDigits 10 m = Nat.toDigits 10 n := by rw [← Nat.toList_repr, ← Nat.toList_repr, this]
  rw [← Nat.ofDigitChars_ten_toDigits (n := m), h1, Nat.ofDigitChars_ten_toDigits]

theorem text_ne_name {n : Nat} {s : String} (h : ∃ c l, s.toList = c :: l ∧ ¬ ('0' ≤ c ∧ c ≤ '9')) : (Key.i n).text ≠ s := by
  intro e
  obtain ⟨c, l, h1, h2⟩ := h
  have : c ∈ Nat.toDigits 10 n := by rw [← text_nat, e, h1]; simp
  exact h2 (digits_ascii this).1

/-- Numbered items as they are read. -/
def numItems (es : List (Nat × Obj)) : List (Key × Obj) := es.map (fun e => (.i e.1, e.2))
/-- Numbered items before the keys are numbers. -/
def textItems (es : List (Nat × Obj)) : List (Key × Obj) := es.map (fun e => (.s (Key.i e.1).text, e.2))

theorem moveKeys_nums {U : UnicodeDb} (hU : U.Ascii) : ∀ (es done : List (Nat × Obj)), ((done ++ es).map (·.1)).Nodup →
    (∀ e ∈ es, e.1 < 10 ^ 4300) →
    moveKeys U (es.map (fun e => (Key.i e.1).text)) (textItems es ++ numItems done) = .ok (numItems (done ++ es))
  | [], done, _, _ => by simp [moveKeys, textItems]
  | e :: es, done, hn, hb => by
    have hne : ∀ e' ∈ es, e'.1 ≠ e.1 := by
      intro e' h' he
      rw [List.map_append, List.nodup_append] at hn
      have := hn.2.1
      rw [List.map_cons, List.nodup_cons] at this
      exact this.1 (he ▸ List.mem_map_of_mem h')
    have hnd : ∀ e' ∈ done, e'.1 ≠ e.1 := by
      intro e' h' he
      rw [List.map_append, List.nodup_append] at hn
      exact hn.2.2 _ (List.mem_map_of_mem h') _ (by simp) he
    have hn' : (((done ++ [e]) ++ es).map (·.1)).Nodup := by rwa [List.append_assoc]
    have ih := moveKeys_nums hU es (done ++ [e]) hn' (fun x h => hb x (List.mem_cons_of_mem _ h))
    rw [List.map_cons, moveKeys]
    have h1 : moveKey U (textItems (e :: es) ++ numItems done) (Key.i e.1).text = .ok (textItems es ++ numItems (done ++ [e])) := by
      unfold moveKey
      have ha : aget (.s (Key.i e.1).text) (textItems (e :: es) ++ numItems done) = some e.2 := by
        simp [textItems, aget]
      rw [ha]
      simp only
      rw [text_intOf hU e.1 (hb e (by simp))]
      simp only
      have hd : adel (.s (Key.i e.1).text) (textItems (e :: es) ++ numItems done) = textItems es ++ numItems done := by
        simp only [textItems, List.map_cons, List.cons_append, adel, if_true]
        apply adel_of_not_mem
        simp only [List.map_append, List.mem_append, List.mem_map, numItems, not_or, not_exists, not_and]
        constructor
        · rintro _ ⟨x, hx, rfl⟩ he
          injection he with he
          exact hne x hx (text_inj he)
        · rintro _ ⟨x, hx, rfl⟩ he
          cases he
      rw [hd, aset_append_new]
      · simp [numItems]
      · simp only [List.map_append, List.mem_append, List.mem_map, numItems, textItems, not_or, not_exists, not_and]
        constructor
        · rintro _ ⟨x, hx, rfl⟩ he
          cases he
        · rintro _ ⟨x, hx, rfl⟩ he
          injection he with he
          exact hnd x hx (by exact_mod_cast he)
    rw [h1]
    simp only [bind, Except.bind]
    rw [ih, List.append_assoc]; rfl

theorem digitKeys_nums {U : UnicodeDb} (hU : U.Ascii) : ∀ es : List (Nat × Obj),
    digitKeys U (textItems es) = es.map (fun e => (Key.i e.1).text)
  | [] => rfl
  | e :: es => by
    have := digitKeys_nums hU es
    simp only [textItems, List.map_cons] at this ⊢
    rw [digitKeys, if_pos (text_isDigit hU e.1), this]

/-- Reading a dict whose keys are numbers. -/
theorem hook_nums {U : UnicodeDb} (hU : U.Ascii) (es : List (Nat × Obj)) (hn : (es.map (·.1)).Nodup) (hb : ∀ e ∈ es, e.1 < 10 ^ 4300) :
    bytesHook U (textItems es) = .ok (.dict (numItems es)) := by
  have hno : ∀ s : String, (∃ c l, s.toList = c :: l ∧ ¬ ('0' ≤ c ∧ c ≤ '9')) → aget (.s s) (textItems es) = none := by
    intro s hs
    apply aget_none_of
    simp only [textItems, List.map_map, List.mem_map, Function.comp, not_exists, not_and]
    intro x hx he
    injection he with he
    exact text_ne_name hs he
  unfold bytesHook
  rw [hno "__type" ⟨_, _, rfl, by decide⟩]
  simp only
  unfold respHook
  rw [hno "decoded" ⟨_, _, rfl, by decide⟩]
  simp only
  unfold valueHook
  rw [hno "value" ⟨_, _, rfl, by decide⟩]
  simp only
  unfold intKeyHook
  rw [digitKeys_nums hU]
  have := moveKeys_nums hU es [] (by simpa using hn) hb
  simp only [numItems, List.map_nil, List.append_nil, List.nil_append] at this
  rw [this]; rfl

/-! ### Names -/

/-- What `value_list_json_decoder` does before the keys. -/
def fixValue (o : List (Key × Obj)) : List (Key × Obj) :=
  match aget (.s "value") o with
  | some (.list [a, b, c]) => aset (.s "value") (.tuple [a, b, c]) o
  | _ => o

theorem valueHook_fix (U : UnicodeDb) (o : List (Key × Obj)) : valueHook U o = intKeyHook U (fixValue o) := by
  unfold valueHook fixValue
  split
  · rename_i h; rw [h]
  · rename_i h
    split
    · rename_i h'; exact (h _ _ _ h').elim
    · rfl

theorem fixValue_cons {k : Key} (h : k ≠ .s "value") (x : Obj) (o : List (Key × Obj)) : fixValue ((k, x) :: o) = (k, x) :: fixValue o := by
  unfold fixValue
  rw [aget, if_neg h]
  split
  · rw [aset, if_neg h]
  · rfl

theorem fixValue_none {o : List (Key × Obj)} (h : .s "value" ∉ o.map (·.1)) : fixValue o = o := by
  unfold fixValue; rw [aget_none_of h]

theorem writable_soft {v : Val} (h : Writable v) : softVal v = .ofVal v := by
  cases v <;> first | rfl | exact h.elim

theorem ofItems_eq : ∀ kv : List (Key × Val), Obj.ofItems kv = kv.map (fun e => (e.1, Obj.ofVal e.2))
  | [] => by simp [Obj.ofItems]
  | (k, v) :: l => by simp [Obj.ofItems, ofItems_eq l]

theorem fixValue_soft : ∀ (kv : List (Key × Val)), (kv.map (·.1)).Nodup → WritableD kv → (∀ k ∈ kv.map (·.1), ∃ s, k = .s s ∧ PlainName s) →
    fixValue (softItems kv) = Obj.ofItems kv
  | [], _, _, _ => by simp [fixValue, softItems, aget, Obj.ofItems]
  | (k, v) :: l, hn, hw, hk => by
    rw [List.map_cons, List.nodup_cons] at hn
    rw [WritableD] at hw
    obtain ⟨s, hs, hp⟩ := hk k (by simp)
    try simp only at hs
    have ih := fixValue_soft l hn.2 hw.2 (fun k h => hk k (List.mem_cons_of_mem _ h))
    by_cases hv : k = .s "value"
    · have hlk : Key.s "value" ∉ (softItems l).map (·.1) := by
        intro hm
        simp only [softItems, List.map_map, List.mem_map, Function.comp] at hm
        obtain ⟨e, he, h⟩ := hm
        obtain ⟨s', hs', _⟩ := hk e.1 (List.mem_cons_of_mem _ (List.mem_map_of_mem he))
        rw [hs', Key.text] at h
        exact hn.1 (List.mem_map.2 ⟨e, he, by show e.1 = k; rw [hs', hv, h]⟩)
      rw [fixValue_none hlk] at ih
      rw [if_pos hv] at hw
      subst hv
      have hpv := hw.1
      have e1 : softItems ((.s "value", v) :: l) = (.s "value", softVal v) :: softItems l := rfl
      rw [e1, ih, Obj.ofItems]
      unfold PlainValue at hpv
      split at hpv
      all_goals first
        | exact hpv.elim
        | rfl
        | (simp only [fixValue, aget, if_true, softVal, Obj.ofVal, Obj.ofVals, aset]; done)
    · rw [if_neg hv] at hw
      have e1 : softItems ((k, v) :: l) = (k, Obj.ofVal v) :: softItems l := by
        simp only [softItems, List.map_cons, writable_soft hw.1]
        rw [hs]; rfl
      rw [e1, fixValue_cons hv, ih, Obj.ofItems]

theorem name_noDigit {U : UnicodeDb} (hU : U.Ascii) {s : String} (h : PlainName s) : U.isDigitStr s.toList = false := by
  obtain ⟨⟨c, l, hc, h1, h2⟩, _⟩ := h
  rw [hc]
  have ha : c.toNat < 128 ∧ ¬ ('0' ≤ c ∧ c ≤ '9') := by
    simp only [Char.le_def, UInt32.le_iff_toNat_le] at h1 h2 ⊢
    have e1 : ('a').val.toNat = 97 := rfl
    have e2 : ('z').val.toNat = 122 := rfl
    have e3 : ('9').val.toNat = 57 := rfl
    have : c.toNat = c.val.toNat := rfl
    omega
  have hd : U.isDigit c = false := by
    rw [Bool.eq_false_iff]; intro h; exact ha.2 ((hU c ha.1).1.1 h)
  simp [UnicodeDb.isDigitStr, hd]

theorem digitKeys_names {U : UnicodeDb} (hU : U.Ascii) : ∀ o : List (Key × Obj), (∀ k ∈ o.map (·.1), ∃ s, k = .s s ∧ PlainName s) → digitKeys U o = []
  | [], _ => rfl
  | (k, x) :: o, h => by
    obtain ⟨s, hs, hp⟩ := h k (by simp)
    try simp only at hs
    subst hs
    rw [digitKeys, name_noDigit hU hp]
    exact digitKeys_names hU o (fun k h' => h k (List.mem_cons_of_mem _ h'))

/-- Reading a dict whose keys are names. -/
theorem hook_names {U : UnicodeDb} (hU : U.Ascii) (kv : List (Key × Val)) (hn : (kv.map (·.1)).Nodup) (hw : WritableD kv)
    (hk : ∀ k ∈ kv.map (·.1), ∃ s, k = .s s ∧ PlainName s) : bytesHook U (softItems kv) = .ok (.dict (Obj.ofItems kv)) := by
  have hno : ∀ s : String, ¬ PlainName s → aget (.s s) (softItems kv) = none := by
    intro s hs
    apply aget_none_of
    simp only [softItems, List.map_map, List.mem_map, Function.comp, not_exists, not_and]
    intro x hx he
    obtain ⟨s', h1, h2⟩ := hk x.1 (List.mem_map_of_mem hx)
    rw [h1, Key.text] at he
    injection he with he
    exact hs (he ▸ h2)
  unfold bytesHook
  rw [hno "__type" (by rintro ⟨⟨c, l, h, h1, _⟩, _⟩; injection h with h; subst h; exact absurd h1 (by decide))]
  simp only
  unfold respHook
  rw [hno "decoded" (fun h => h.2.2 rfl)]
  simp only
  rw [valueHook_fix, fixValue_soft kv hn hw hk]
  unfold intKeyHook
  rw [digitKeys_names hU, moveKeys]
  · rfl
  · rw [ofItems_eq, List.map_map]; exact hk

/-! ## Whole documents -/

theorem nodup_map_of' {A B C : Type} {f : A → B} {g : A → C} {l : List A} (h : (l.map f).Nodup) (hi : ∀ a b, g a = g b → f a = f b) :
    (l.map g).Nodup := by
  induction l with
  | nil => simp
  | cons a t ih =>
    rw [List.map_cons, List.nodup_cons] at h ⊢
    refine ⟨fun hm => ?_, ih h.2⟩
    obtain ⟨b, hb, he⟩ := List.mem_map.1 hm
    exact h.1 (List.mem_map.2 ⟨b, hb, hi b a he⟩)

theorem nodup_map_of {A B C : Type} {f : A → B} {g : A → C} {l : List A} (h : (l.map f).Nodup) (hi : ∀ a ∈ l, ∀ b ∈ l, g a = g b → f a = f b) :
    (l.map g).Nodup := by
  induction l with
  | nil => simp
  | cons a t ih =>
    rw [List.map_cons, List.nodup_cons] at h ⊢
    refine ⟨fun hm => ?_, ih h.2 (fun a ha b hb => hi a (List.mem_cons_of_mem _ ha) b (List.mem_cons_of_mem _ hb))⟩
    obtain ⟨b, hb, he⟩ := List.mem_map.1 hm
    exact h.1 (List.mem_map.2 ⟨b, hb, hi b (List.mem_cons_of_mem _ hb) a (by simp) he⟩)

theorem nums_of : ∀ kv : List (Key × Val), (∀ k ∈ kv.map (·.1), ∃ n : Nat, k = .i n ∧ n < 10 ^ 4300) →
    ∃ es : List (Nat × Val), kv = es.map (fun e => (.i e.1, e.2))
  | [], _ => ⟨[], rfl⟩
  | (k, v) :: l, h => by
    obtain ⟨n, hn, _⟩ := h k (by simp)
    obtain ⟨es, hes⟩ := nums_of l (fun k h' => h k (List.mem_cons_of_mem _ h'))
    try simp only at hn
    exact ⟨(n, v) :: es, by rw [hes, hn]; rfl⟩

theorem writableD_mem : ∀ {kv : List (Key × Val)}, WritableD kv → ∀ {e : Key × Val}, e ∈ kv →
    (if e.1 = .s "value" then PlainValue e.2 else Writable e.2)
  | (k, v) :: l, h, e, he => by
    rcases List.mem_cons.1 he with rfl | he
    · exact h.1
    · exact writableD_mem h.2 he

mutual
theorem load_dump {U : UnicodeDb} (hU : U.Ascii) : ∀ v : Val, Writable v → loadJson U (dumpJson v) = .ok (Obj.ofVal v)
  | .null, _ => rfl
  | .int _, _ => rfl
  | .flt _, _ => rfl
  | .str _, _ => rfl
  | .bytes b, _ => by
    simp only [dumpJson, loadJson, loadJsonD, bind, Except.bind, pure, Except.pure]
    have h2 : evalBytes (String.ofList (bytesRepr b)).toList = some b := by rw [String.toList_ofList, evalBytes_repr]
    have h1 : ofPairs [("__type", Obj.str "<class 'bytes'>"), ("repr", Obj.str (String.ofList (bytesRepr b)))] =
      [(.s "__type", Obj.str "<class 'bytes'>"), (.s "repr", Obj.str (String.ofList (bytesRepr b)))] := rfl
    rw [h1]
    unfold bytesHook
    have h3 : aget (Key.s "__type") [(Key.s "__type", Obj.str "<class 'bytes'>"), (.s "repr", Obj.str (String.ofList (bytesRepr b)))] =
      some (Obj.str "<class 'bytes'>") := rfl
    have h4 : aget (Key.s "repr") [(Key.s "__type", Obj.str "<class 'bytes'>"), (.s "repr", Obj.str (String.ofList (bytesRepr b)))] =
      some (Obj.str (String.ofList (bytesRepr b))) := rfl
    rw [h3, h4]
    simp only
    rw [h2]; rfl
  | .tuple _, h => h.elim
  | .list l, h => by
    simp only [dumpJson, loadJson, Obj.ofVal, load_dumpL hU l h]; rfl
  | .dict kv, h => by
    obtain ⟨hn, hk, hw⟩ := h
    simp only [dumpJson, loadJson, load_dumpD hU kv hw, bind, Except.bind]
    have hnt : ((kv.map (fun e => (e.1.text, softVal e.2))).map (·.1)).Nodup := by
      rw [List.map_map]
      rcases hk with hk | hk
      · refine nodup_map_of hn (fun a ha b hb he => ?_)
        obtain ⟨x, hx, _⟩ := hk a.1 (List.mem_map_of_mem ha)
        obtain ⟨y, hy, _⟩ := hk b.1 (List.mem_map_of_mem hb)
        simp only [Function.comp] at he
        rw [hx, hy] at he
        rw [hx, hy, text_inj he]
      · refine nodup_map_of hn (fun a ha b hb he => ?_)
        obtain ⟨x, hx, _⟩ := hk a.1 (List.mem_map_of_mem ha)
        obtain ⟨y, hy, _⟩ := hk b.1 (List.mem_map_of_mem hb)
        simp only [Function.comp] at he
        rw [hx, hy] at he
        rw [hx, hy]; exact congrArg Key.s he
    rw [ofPairs_nodup _ hnt, List.map_map]
    rcases hk with hk | hk
    · obtain ⟨es, hes⟩ := nums_of kv hk
      have hsoft : ∀ e ∈ kv, softVal e.2 = Obj.ofVal e.2 := by
        intro e he
        refine writable_soft ?_
        have := writableD_mem hw he
        rwa [if_neg] at this
        intro h
        obtain ⟨n, hn', _⟩ := hk e.1 (List.mem_map_of_mem he)
        rw [hn'] at h; cases h
      have e1 : kv.map ((fun p : String × Obj => (Key.s p.1, p.2)) ∘ (fun e => (e.1.text, softVal e.2))) =
          textItems (es.map (fun e => (e.1, Obj.ofVal e.2))) := by
        rw [textItems, List.map_map]
        conv => rhs; rw [show (fun (e : Nat × Obj) => (Key.s (Key.i e.1).text, e.2)) ∘ (fun e : Nat × Val => (e.1, Obj.ofVal e.2)) =
          (fun e : Key × Val => (Key.s e.1.text, Obj.ofVal e.2)) ∘ (fun e : Nat × Val => (Key.i e.1, e.2)) from rfl, ← List.map_map, ← hes]
        refine List.map_congr_left (fun e he => ?_)
        simp only [Function.comp, hsoft e he]
      rw [e1, hook_nums hU]
      · rw [Obj.ofVal, ofItems_eq, numItems, hes, List.map_map, List.map_map]; rfl
      · rw [hes, List.map_map] at hn
        rw [List.map_map]
        refine nodup_map_of' hn (fun a b h => ?_)
        simp only [Function.comp] at h ⊢
        exact congrArg (fun n : Nat => Key.i n) h
      · intro e he
        simp only [List.mem_map] at he
        obtain ⟨x, hx, rfl⟩ := he
        have : Key.i x.1 ∈ kv.map (·.1) := by rw [hes, List.map_map]; exact List.mem_map.2 ⟨x, hx, rfl⟩
        obtain ⟨n, h1, h2⟩ := hk _ this
        injection h1 with h1
        have : x.1 = n := by exact_mod_cast h1
        simpa [this] using h2
    · exact hook_names hU kv hn hw hk
theorem load_dumpL {U : UnicodeDb} (hU : U.Ascii) : ∀ l : List Val, WritableL l → loadJsonL U (dumpJsonL l) = .ok (Obj.ofVals l)
  | [], _ => rfl
  | v :: l, h => by
    simp only [dumpJsonL, loadJsonL, load_dump hU v h.1, load_dumpL hU l h.2, Obj.ofVals]; rfl
theorem load_dumpD {U : UnicodeDb} (hU : U.Ascii) : ∀ kv : List (Key × Val), WritableD kv →
    loadJsonD U (dumpJsonD kv) = .ok (kv.map (fun e => (e.1.text, softVal e.2)))
  | [], _ => rfl
  | (k, v) :: l, h => by
    have hv : loadJson U (dumpJson v) = .ok (softVal v) := by
      by_cases hk : k = .s "value"
      · have := h.1; rw [if_pos hk] at this; exact plainValue_load this
      · have := h.1; rw [if_neg hk] at this; rw [writable_soft this]; exact load_dump hU v this
    simp only [dumpJsonD, loadJsonD, hv, load_dumpD hU l h.2, List.map_cons]; rfl
end

end SL
