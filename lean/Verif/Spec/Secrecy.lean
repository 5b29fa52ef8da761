import Verif.Model.History

/-!
# Runs that differ in their keys (specification for C121)

Two devices get the same calls, packets and events but other keys. Their crypto callbacks are `E` and `E'`; keys are paired by a
relation `R` so that paired keys give the same results.
-/

namespace Spec
open Uwan (Op Ret Ev Item Byte Bytes Block Env)

/-- Paired keys compute the same, and blocks computed with them, which can become keys, are paired. -/
structure Paired (E E' : Env) (R : Block → Block → Prop) : Prop where
  aes : ∀ {k k'}, R k k' → ∀ b, E'.aes k' b = E.aes k b
  cmac : ∀ {k k'}, R k k' → ∀ m, E'.cmac k' m = E.cmac k m
  derived : ∀ {k k'}, R k k' → ∀ b, R (E.aes k b) (E'.aes k' b)
  /-- static storage is zero -/
  zero : R (Vector.replicate 16 0) (Vector.replicate 16 0)

/-- The same calls, with paired keys. -/
inductive SameButKeys (R : Block → Block → Prop) : List Op → List Op → Prop where
  | nil : SameButKeys R [] []
  | otaa {l l' : List Op} {d a : Vector Byte 8} {k k' : Block} (h : SameButKeys R l l') (hk : R k k') :
      SameButKeys R (l ++ [.setOtaaKeys d a k]) (l' ++ [.setOtaaKeys d a k'])
  | session {l l' : List Op} {addr up down : Uwan.U32} {n n' p p' : Block} (h : SameButKeys R l l') (hn : R n n') (hp : R p p') :
      SameButKeys R (l ++ [.setSession addr up down n p]) (l' ++ [.setSession addr up down n' p'])
  | same {l l' : List Op} (op : Op) (h : SameButKeys R l l') (h1 : ∀ d a k, op ≠ .setOtaaKeys d a k)
      (h2 : ∀ a u d n p, op ≠ .setSession a u d n p) : SameButKeys R (l ++ [op]) (l' ++ [op])

/-- A call with the key blanked out where it is handed to the cipher. -/
def hideKey : Ev → Ev
  | .aesNew _ => .aesNew (Vector.replicate 16 0)
  | .cmacNew _ => .cmacNew (Vector.replicate 16 0)
  | e => e

/-- What others see of an operation: its result, and all calls with their arguments but for the keys handed to the cipher. -/
def outside (it : Item) : Ret × List Ev := (it.ret, it.ev.map hideKey)

end Spec
