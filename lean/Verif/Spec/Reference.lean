import Verif.Spec.Iteration
/-!
# Specification of iteration: a reference iterator

It has no positions and no split function: it keeps the text in three parts, and takes the next token
to be the first token of the part that is left, for the configuration at the time of the call.
-/
namespace Uax29.Spec

/-- The first token of `d` for configuration `c`; nothing if `d` is empty. -/
def firstToken (p : Pkg) (c : Option (Config p)) (d : Bytes) : Bytes :=
  match (fresh p c d).tokens with
  | .ok (t :: _) => t
  | _ => []

/-- The text is `before ++ token ++ rest`; `token` was returned last. -/
structure Ref (p : Pkg) where
  conf : Option (Config p)
  before : Bytes
  token : Bytes
  rest : Bytes

/-- One call on the reference iterator. -/
def Ref.run {p : Pkg} (r : Ref p) : Op p → Ref p × Obs
  | .next =>
    if r.rest = [] then (r, .bool false)
    else
      let t := firstToken p r.conf r.rest
      (⟨r.conf, r.before ++ r.token, t, r.rest.drop t.length⟩, .bool true)
  | .value => (r, .bytes r.token)
  | .start => (r, .nat r.before.length)
  | .end => (r, .nat (r.before ++ r.token).length)
  | .first => (r, .bytes (firstToken p r.conf (r.before ++ r.token ++ r.rest)))
  | .reset => (⟨r.conf, [], [], r.before ++ r.token ++ r.rest⟩, .unit)
  | .setText t => (⟨r.conf, [], [], t⟩, .unit)
  | .config c => ({ r with conf := some c }, .unit)

/-- A sequence of calls on the reference iterator: what the caller sees. -/
def Ref.obs {p : Pkg} (r : Ref p) : List (Op p) → List Obs
  | [] => []
  | op :: ops => (r.run op).2 :: Ref.obs (r.run op).1 ops

end Uax29.Spec
