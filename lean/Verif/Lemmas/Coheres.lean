import Verif.Lemmas.Flags
import Verif.Props.ConfigProps
/-!
# The equipment flags and their names

The configuration's decoder stores the two together, so they always agree.
-/
set_option linter.unusedVariables false
namespace SL
open Spec
open Prog (rd rdString rdArray rdTime rdMsgString offset store setdefault lookup throw loop forRange)

/-- The flags are stored with their names right behind them; nothing else is stored there. -/
def Prog.Coheres {α : Type} : Prog α → Prop
  | .pure _ => True
  | .raise _ => True
  | .num g k => ∀ x, (g = .I → 0 ≤ x ∧ x < 4294967296) → (k x).Coheres
  | .str k => ∀ x, (k x).Coheres
  | .arr k => ∀ x, (k x).Coheres
  | .time k => ∀ x, (k x).Coheres
  | .msgStr k => ∀ x, (k x).Coheres
  | .off k => ∀ x, (k x).Coheres
  | .set p x (.set q y k) =>
    (opF (.set p x) = true ∧ Prog.Coheres (.set q y k)) ∨
    (p = flagsAt ∧ q = flagNamesAt ∧ (∃ n : Nat, n < 4294967296 ∧ x = .int n ∧ y = .list ((namesShown n).map .str)) ∧ k.Coheres)
  | .set p x k => opF (.set p x) = true ∧ k.Coheres
  | .setdef p x k => opF (.setdef p x) = true ∧ k.Coheres
  | .get _ k => ∀ x, (k x).Coheres

theorem coheres_set {α : Type} {p : Path} {x : Val} {k : Prog α} (h : opF (.set p x) = true) (hk : k.Coheres) : (Prog.set p x k).Coheres := by
  cases k with
  | set q y k => exact .inl ⟨h, hk⟩
  | _ => exact ⟨h, hk⟩

theorem coheres_of {α : Type} {p : Prog α} : Unflagged p → p.Coheres := by
  induction p with
  | pure a => exact fun _ => trivial
  | raise e => exact fun _ => trivial
  | num f k ih => exact fun h x _ => ih x (h x)
  | str k ih => exact fun h x => ih x (h x)
  | arr k ih => exact fun h x => ih x (h.2 x)
  | time k ih => exact fun h x => ih x (h x)
  | msgStr k ih => exact fun h x => ih x (h.2 x)
  | off k ih => exact fun h x => ih x (h x)
  | set p x k ih => exact fun h => coheres_set h.1 (ih h.2)
  | setdef p x k ih => exact fun h => ⟨h.1, ih h.2⟩
  | get p k ih => exact fun h x => ih x (h.2 x)

theorem coheres_bind {α β : Type} {k : α → Prog β} (hk : ∀ a, (k a).Coheres) : ∀ {p : Prog α}, p.Coheres → (p >>= k).Coheres := by
  show ∀ {p : Prog α}, p.Coheres → (p.bind k).Coheres
  intro p
  fun_induction Prog.Coheres p with
  | case1 => exact fun _ => hk _
  | case2 => exact fun _ => trivial
  | case3 g k' ih => exact fun h x hx => ih x (h x hx)
  | case4 k' ih => exact fun h x => ih x (h x)
  | case5 k' ih => exact fun h x => ih x (h x)
  | case6 k' ih => exact fun h x => ih x (h x)
  | case7 k' ih => exact fun h x => ih x (h x)
  | case8 k' ih => exact fun h x => ih x (h x)
  | case9 p x q y k' ih1 ih2 =>
    rintro (⟨h1, h2⟩ | ⟨h1, h2, h3, h4⟩)
    · exact .inl ⟨h1, ih1 h2⟩
    · exact .inr ⟨h1, h2, h3, ih2 h4⟩
  | case10 p x k' _ ih => exact fun h => coheres_set h.1 (ih h.2)
  | case11 p x k' ih => exact fun h => ⟨h.1, ih h.2⟩
  | case12 p k' ih => exact fun h x => ih x (h x)

/-- The flags in the data are a 32 bit number and the names are theirs. -/
def FlagsNamed (d : Val) : Prop := ∀ v, d.look flagsAt = some v →
  ∃ n : Nat, n < 4294967296 ∧ v = .int n ∧ d.look flagNamesAt = some (.list ((namesShown n).map .str))

theorem getSome_I {m : Bytes} {o : Nat} {r : Int × Nat} (h : getSome .I m o = .ok r) : 0 ≤ r.1 ∧ r.1 < 4294967296 := by
  rw [getSome_def] at h
  split at h
  · cases h
    have h1 := leVal_lt ((m.drop o).take Fmt.I.size)
    have h2 : ((m.drop o).take Fmt.I.size).length = 4 := by
      have : Fmt.I.size = 4 := rfl
      simp only [this, List.length_take, List.length_drop] at *
      omega
    rw [h2] at h1
    simp only [Fmt.value]
    omega
  · cases h

theorem coheres_run {α : Type} {f : Profile} : ∀ {p : Prog α}, p.Coheres → AllOps (fun op => opOK f op = true) p →
    ∀ (m : Bytes) (o : Nat) (d : Val), FlagsNamed d → FlagsNamed (p.run m o d).2 := by
  have node : ∀ {q : Path} {x : Val}, opOK f (.set q x) = true → isNode q = false := by
    intro q x hop
    simp only [opOK, Bool.and_eq_true, Bool.not_eq_true', defaulted, Bool.or_eq_false_iff] at hop
    exact hop.2.2.1
  have put : ∀ {q : Path} {x d : Val}, opF (.set q x) = true → opOK f (.set q x) = true → FlagsNamed d → FlagsNamed (Val.put q x d) := by
    intro q x d h1 h2 h v hv
    rw [off_put (.inl rfl) h1 (node h2)] at hv
    rw [off_put (.inr rfl) h1 (node h2)]
    exact h v hv
  intro p
  fun_induction Prog.Coheres p with
  | case1 => exact fun _ _ _ _ _ h => h
  | case2 => exact fun _ _ _ _ _ h => h
  | case3 g k ih =>
    intro w hp m o d h
    simp only [Prog.run]
    cases hg : getSome g m o with
    | error e => exact h
    | ok r => exact ih r.1 (w r.1 (fun e => getSome_I (e ▸ hg))) (hp r.1) m r.2 d h
  | case4 k ih => exact fun w hp m o d h => andThen_snd h (fun a o => ih a (w a) (hp a) m o d h)
  | case5 k ih => exact fun w hp m o d h => andThen_snd h (fun a o => ih a (w a) (hp.2 a) m o d h)
  | case6 k ih => exact fun w hp m o d h => andThen_snd h (fun a o => ih a (w a) (hp a) m o d h)
  | case7 k ih =>
    intro w hp m o d h
    simp only [Prog.run]
    split
    · exact ih _ (w _) (hp.2 _) m o d h
    · exact h
  | case8 k ih => exact fun w hp m o d h => ih o (w o) (hp o) m o d h
  | case9 p x q y k ih1 ih2 =>
    rintro (⟨h1, h2⟩ | ⟨rfl, rfl, ⟨n, hn, rfl, rfl⟩, h4⟩) hp m o d h
    · rw [Prog.run]
      split
      · exact ih1 h2 hp.2 m o _ (put h1 hp.1 h)
      · exact h
    · rw [Prog.run]
      split
      · rename_i kv hkv
        rw [Prog.run]
        have : ∃ kv', (Val.put flagsAt (Val.int n) d).look flagNamesAt.dropLast = some (.dict kv') :=
          look_put_above _ _ (by decide) (by decide)
        obtain ⟨kv', hkv'⟩ := this
        rw [hkv']
        refine ih2 h4 hp.2.2 m o _ ?_
        intro v hv
        rw [look_put_other _ _ (by decide) (by decide), look_put_same] at hv
        cases hv
        exact ⟨n, hn, rfl, look_put_same _ _ _⟩
      · exact h
  | case10 p x k hne ih =>
    intro w hp m o d h
    rw [Prog.run]
    split
    · exact ih w.2 hp.2 m o _ (put w.1 hp.1 h)
    · exact h
  | case11 p x k ih =>
    intro w hp m o d h
    simp only [Prog.run]
    split
    · refine ih w.2 hp.2 m o _ ?_
      intro v hv
      rw [off_putNew (.inl rfl) w.1] at hv
      rw [off_putNew (.inr rfl) w.1]
      exact h v hv
    · exact h
  | case12 p k ih =>
    intro w hp m o d h
    simp only [Prog.run]
    split
    · exact ih _ (w _) (hp.2 _) m o d h
    · exact h

theorem coheres_config : decodeConfig.Coheres := by
  unfold decodeConfig
  refine coheres_bind (fun _ => coheres_of ?_) ?_
  rotate_left
  · unfold decodeConfigHead
    refine ⟨rfl, fun _ _ => coheres_set rfl ⟨rfl, rfl, ?_⟩⟩
    show Prog.Coheres (forRange 2 decodeSetpoints >>= _)
    refine coheres_bind (p := forRange 2 decodeSetpoints) (fun _ => ?_)
      (coheres_of (fl_forRange (fun i => by unfold decodeSetpoints; repeat fl_step) _))
    refine fun _ _ => coheres_set rfl (fun _ _ => coheres_set rfl (fun _ _ => coheres_set rfl (coheres_set rfl (fun _ _ => coheres_set rfl ⟨rfl, fun e he v => ?_⟩))))
    obtain ⟨h0, h1⟩ := he rfl
    obtain ⟨n, rfl⟩ := Int.eq_ofNat_of_zero_le h0
    have hn : n < 4294967296 := by omega
    have tail : ∀ a : Int, (∃ k : Nat, k < 4294967296 ∧ a = k) →
        Prog.Coheres (store [.s "controller", .s "equipment", .s "flags"] (.int a) >>= fun _ =>
          store [.s "controller", .s "equipment", .s "list"] (.list ((equipmentList a).map .str)) >>= fun _ =>
          rdString >>= fun name => store (ctlConfig "generic_circuit_name") (.str name)) := by
      rintro a ⟨k, hk, rfl⟩
      rw [equip_list]
      exact .inr ⟨rfl, rfl, ⟨k, hk, rfl, rfl⟩, fun _ => coheres_set rfl trivial⟩
    have small : (n &&& 0xFFFF) < 4294967296 := by
      have := Nat.and_le_left (n := n) (m := 0xFFFF)
      omega
    show Prog.Coheres (maskFlags v n >>= _)
    have one : ∀ q : Rat, ∃ k : Nat, k < 4294967296 ∧ (if q ≤ 736 then (((n : Int).toNat &&& 0xFFFF : Nat) : Int) else n) = k := by
      intro q
      by_cases hq : q ≤ 736
      · exact ⟨_, small, by rw [if_pos hq]; rfl⟩
      · exact ⟨n, hn, by rw [if_neg hq]⟩
    have two : ∀ q : Int, ∃ k : Nat, k < 4294967296 ∧ (if q ≤ 736 then (((n : Int).toNat &&& 0xFFFF : Nat) : Int) else n) = k := by
      intro q
      by_cases hq : q ≤ 736
      · exact ⟨_, small, by rw [if_pos hq]; rfl⟩
      · exact ⟨n, hn, by rw [if_neg hq]⟩
    unfold maskFlags
    split
    · exact tail _ ⟨n, hn, rfl⟩
    · exact tail _ ⟨n, hn, rfl⟩
    · exact tail _ (one _)
    · exact tail _ (two _)
    · exact trivial
  fl_step; fl_step; fl_step
  refine fl_bind (fl_forRange (fun i => by unfold decodeConfigCircuit; repeat fl_step) _) (fun _ => ?_)
  fl_step; fl_step
  refine fl_bind (fl_loop (fun i s => by unfold decodeColor; repeat fl_step) _ _ _) (fun _ => ?_)
  fl_step; fl_step
  refine fl_bind (fl_forRange (fun i => by unfold decodePumpData; repeat fl_step) _) (fun _ => ?_)
  repeat fl_step

theorem decoder_coheres (f : String → Except PyErr Rat) (D : Decoder) : (D.prog f).Coheres := by
  by_cases h : D = .config
  · subst h
    exact coheres_config
  · exact coheres_of (D.unflagged f h)

/-- Whatever is decoded. -/
theorem flagsNamed_decode (f : String → Except PyErr Rat) (D : Decoder) (m : Bytes) {d : Val} (h : FlagsNamed d) :
    FlagsNamed (decodeWith (D.prog f) m d).2 :=
  coheres_run (decoder_coheres f D) (D.fits f) m 0 d h

end SL
