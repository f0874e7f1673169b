import Verif.Spec.Subs
import Verif.Model.Notify
/-!
# What is meant by notifying the listeners, whatever they do
-/
namespace SL

/-- The listeners of the code, each once, in some order. -/
def InOrder (g : Gw) (code : Nat) (order : List Nat) : Prop := order.Nodup ∧ ∀ cb, cb ∈ order ↔ Listening g code cb

/-- In this history a subscription to `code` has returned the function `u`. -/
def GotFor (E : Env) (clientId maxRetries : Int) (es : List Ev) (code : Nat) (u : Sub) : Prop :=
  ∃ es1 cb es2, es = es1 ++ .call (.subscribe cb code) :: es2 ∧ Returns E clientId maxRetries es1 cb code es2 u

/-- The listener returns normally, and if it unsubscribes anybody then from other codes. -/
def Conduct.Fair (E : Env) (clientId maxRetries : Int) (es : List Ev) (code : Nat) (b : Conduct) : Prop :=
  b.raises = none ∧ ∀ u ∈ b.unsubs, ∃ code', code' ≠ code ∧ GotFor E clientId maxRetries es code' u

/-- Reading the message turns the data `d` into `d'`. -/
inductive Understood (E : Env) (code : Nat) (msg : Bytes) (d : Val) : Val → Prop
  | known (D : Decoder) (hD : KnownPush code D) (d' : Val) (h : decodeWith (D.prog E.pyFloat) msg d = (.ok (), d')) : Understood E code msg d d'
  | unknown (h : ∀ D, ¬ KnownPush code D) : Understood E code msg d d

end SL
