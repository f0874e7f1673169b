import Verif.Model.Gateway
/-!
# screenlogicpy/client.py: notifying listeners that misbehave

`Gw.commonCallback` (Model/Gateway.lean) calls listeners that just return.  Here a listener may call unsubscribe functions
while it is being called, and may raise.  (Whatever else it may call in the library synchronously does not touch the
sets of listeners: `async_subscribe` is a coroutine and runs later.)
-/
namespace SL

/-- What a listener does when it is called: it calls these unsubscribe functions, and then returns or raises. -/
structure Conduct where
  unsubs : List Sub := []
  raises : Option PyErr := none

/-- `callback()`: client.py:88-89.  The call is noted, with the data the listener finds. -/
def Gw.callListener (g : Gw) (cb : Nat) (b : Conduct) : Except PyErr Unit × Gw :=
  let g := b.unsubs.foldl Gw.unsubscribe { g with notes := g.notes ++ [(cb, g.data)] }
  match b.raises with
  | some e => (.error e, g)
  | none => (.ok (), g)

/-- `for callback in <the set object s>: callback()`: client.py:88-89, from some point on, with the callbacks still to come in the
order of the iteration.  The iterator compares the size of the set with its size at the start before each step and
before it ends (CPython `setiter_iternext`).  Within an iteration nothing is added to the set, so equal sizes mean that
it has not changed. -/
def Gw.iterate (conduct : Nat → Conduct) (s size : Nat) (g : Gw) (rest : List Nat) : Except PyErr Unit × Gw :=
    if ((g.sets[s]?).getD []).length ≠ size then (.error .runtimeError, g)
    else
      match rest with
      | [] => (.ok (), g)
      | cb :: rest =>
        match g.callListener cb (conduct cb) with
        | (.ok _, g) => g.iterate conduct s size rest
        | (.error e, g) => (.error e, g)

/-- `_notify_listeners`: client.py:86-89; `order` is the order in which the set is iterated. -/
def Gw.notifyIn (conduct : Nat → Conduct) (order : List Nat) (g : Gw) (code : Nat) : Except PyErr Unit × Gw :=
  match aget code g.listeners with
  | some s => g.iterate conduct s ((g.sets[s]?).getD []).length order
  | none => (.error .typeError, g)

/-- `_async_common_callback`: client.py:102-107.  The exception it raises, if any, ends its task and nothing else. -/
def Gw.deliver (E : Env) (conduct : Nat → Conduct) (order : List Nat) (g : Gw) (code : Nat) (msg : Bytes) : Except PyErr Unit × Gw :=
  match pushDecoder code with
  | some D =>
    match decodeWith (D.prog E.pyFloat) msg g.data with
    | (.ok _, d) => { g with data := d }.notifyIn conduct order code
    | (.error e, d) => (.error e, { g with data := d })
  | none => g.notifyIn conduct order code

end SL
