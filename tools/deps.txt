/- Dev tool (not part of the library): dumps, for every property theorem, the project constants it depends on. -/
import Verif
open Lean
def projConst (env : Environment) (n : Name) : Bool :=
  match env.getModuleIdxFor? n with
  | some i => (env.header.moduleNames[i.toNat]!).getRoot == `Verif
  | none => false
partial def depClosure (env : Environment) (todo : List Name) (seen : NameSet) : NameSet :=
  match todo with
  | [] => seen
  | n :: rest =>
    if seen.contains n then depClosure env rest seen else
    match env.find? n with
    | none => depClosure env rest seen
    | some ci =>
      let us := (ci.getUsedConstantsAsSet.toList).filter (projConst env)
      depClosure env (us ++ rest) (seen.insert n)
run_cmd do
  let env ← getEnv
  let thms := env.constants.map₁.toList.filterMap fun (n, ci) =>
    match ci with
    | .thmInfo _ => if projConst env n && !n.isInternal then some n else none
    | _ => none
  for t in thms do
    let s := t.getString!
    if s.startsWith "C" && (s.drop 1).front.isDigit then
      let c := depClosure env [t] {}
      IO.println s!"{t} {" ".intercalate (c.toList.map toString)}"
