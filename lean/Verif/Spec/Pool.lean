import Verif.Model.Pool

/-
What calls of functions give if everything is done one after the other, without threads: `gather(f, g, ...)` is
`[f(), g(), ...]`.
-/

namespace Aiootp.Pool

variable {V : Type}

mutual
/-- `Eval P f o`: calling `f` may give `o`. -/
inductive Eval (P : Prog V) : Nat → Out V → Prop where
  | leaf {f : Nat} {o : Out V} (hc : P.code f = .leaf) (ho : P.may f o) : Eval P f o
  | gather {f : Nat} {fs : List Nat} {vs : List V} (hc : P.code f = .gather fs) (h : Seq P fs (.ok vs)) : Eval P f (.ok (P.pack vs))
  | raise {f : Nat} {fs : List Nat} {e : Nat} (hc : P.code f = .gather fs) (h : Seq P fs (.err e)) : Eval P f (.err e)

/-- `Seq P fs r`: calling the functions `fs` one after the other may give the list of results or the exception `r`. -/
inductive Seq (P : Prog V) : List Nat → Out (List V) → Prop where
  | nil : Seq P [] (.ok [])
  | stop {f : Nat} {fs : List Nat} {e : Nat} (h : Eval P f (.err e)) : Seq P (f :: fs) (.err e)
  | ok {f : Nat} {fs : List Nat} {v : V} {vs : List V} (h : Eval P f (.ok v)) (h' : Seq P fs (.ok vs)) : Seq P (f :: fs) (.ok (v :: vs))
  | err {f : Nat} {fs : List Nat} {v : V} {e : Nat} (h : Eval P f (.ok v)) (h' : Seq P fs (.err e)) : Seq P (f :: fs) (.err e)
end

end Aiootp.Pool
