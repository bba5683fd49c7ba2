import Verif.IO.Words
import Verif.IO.Exn

/-! # Model of `SyntaxChecker` (inputoutput.py:62-519) and `make_module_from_text` (573-628)

`ast` trees: the three node kinds with their own visitor are separate constructors, every other kind is `other` with its class name and
its child nodes in field order (which is the order `ast.NodeVisitor.generic_visit` uses).  A `Name`, `Attribute` node has a
context node (`Load`/`Store`/`Del`) as last child.  `print_each_node` is left out. -/

namespace Geotecha.IO

inductive Ctx | load | store | del
  deriving DecidableEq

/-- Class name of the context node. -/
def Ctx.typeName : Ctx → String
  | .load => "Load" | .store => "Store" | .del => "Del"

inductive Node where
  | name (id : String) (ctx : Ctx)
  | attrib (value : Node) (attr : String) (ctx : Ctx)
  | call (func : Node) (rest : List Node)
  | other (type : String) (children : List Node)

/-- The mutable attributes of the checker (inputoutput.py:159-162); only the keys of the dictionaries matter for checking. -/
structure Checker where
  funcs : List String
  nodeTypes : List String
  attrs : List String
  safe : List String

/-- `generic_visit` of a context node (no children), inputoutput.py:213-222. -/
def visitCtx (c : Checker) (x : Ctx) : Except Exn Checker :=
  if x.typeName ∈ c.nodeTypes then .ok c else .error .syntaxError

/-- `hasattr(node.func, 'id')` and `node.func.id not in self.allowed_functions`, 179-181. -/
def calleeRejected (c : Checker) : Node → Bool
  | .name id _ => decide (id ∉ c.funcs)
  | _ => false

/-- `visit_Name`, 188-200. -/
def visitName (c : Checker) (id : String) (ctx : Ctx) : Except Exn Checker :=
  match ctx with
  | .store => visitCtx { c with attrs := id :: c.attrs } ctx
  | .load => if id ∉ c.safe ∧ id ∉ c.funcs ∧ id ∉ c.attrs then .error .syntaxError else visitCtx c ctx
  | .del => visitCtx c ctx

mutual
/-- `visit`: `visit_Name` 188-200, `visit_Attribute` 202-211, `visit_Call` 173-186, `generic_visit` 213-222. -/
def visit (c : Checker) : Node → Except Exn Checker
  | .name id ctx => visitName c id ctx
  | .attrib value attr ctx =>
    if attr ∉ c.funcs ∧ attr ∉ c.attrs then .error .syntaxError
    else match visit c value with
      | .error e => .error e
      | .ok c => visitCtx c ctx
  | .call func rest =>
    if calleeRejected c func then .error .syntaxError
    else match visit c func with
      | .error e => .error e
      | .ok c => visitList c rest
  | .other ty children =>
    if ty ∉ c.nodeTypes then .error .syntaxError else visitList c children
/-- `ast.NodeVisitor.generic_visit`: the children in order. -/
def visitList (c : Checker) : List Node → Except Exn Checker
  | [] => .ok c
  | n :: ns => match visit c n with
    | .error e => .error e
    | .ok c => visitList c ns
end

/-- The words kept by `[a for a in s.split() if not a.startswith('#')]`. -/
def keep (ws : List String) : List String := ws.filter fun w => !w.startsWith "#"

/-- `allow_ast`, 259-289; `has` is `hasattr(ast, ·)`. -/
def allowAst (has : String → Bool) (c : Checker) : Checker :=
  { c with nodeTypes := c.nodeTypes ++ (keep words_allow_ast_0).filter has }

/-- `_split_string_allow(s, 'functions', module)`, 249-253. -/
def addFunctions (has : String → Bool) (ws : List String) (c : Checker) : Checker :=
  { c with funcs := c.funcs ++ (keep ws).filter has }

/-- `_split_string_allow(s, 'attributes')`, 254-256. -/
def addAttributes (ws : List String) (c : Checker) : Checker := { c with attrs := c.attrs ++ keep ws }

/-- `allow_builtin`, 291-404; `has` is `hasattr(builtins, ·)`. -/
def allowBuiltin (has : String → Bool) (c : Checker) : Checker :=
  let c := addFunctions has words_allow_builtin_0 c
  let c := addFunctions has words_allow_builtin_1 c
  let c := addAttributes words_allow_builtin_2 c
  let c := addAttributes words_allow_builtin_3 c
  let c := addAttributes words_allow_builtin_4 c
  let c := addAttributes words_allow_builtin_5 c
  let c := addAttributes words_allow_builtin_6 c
  let c := addAttributes words_allow_builtin_7 c
  addAttributes words_allow_builtin_8 c

/-- `allow_numpy`, 406-507. -/
def allowNumpy (c : Checker) : Checker :=
  let c := { c with funcs := c.funcs ++ ["np", "numpy"] }
  let c := addAttributes words_allow_numpy_0 c
  let c := addAttributes words_allow_numpy_1 c
  let c := { c with attrs := c.attrs ++ ["math"] }
  let c := addAttributes words_allow_numpy_2 c
  addAttributes words_allow_numpy_3 c

/-- `allow_PolyLine`, 509-519. -/
def allowPolyLine (c : Checker) : Checker :=
  addAttributes words_allow_PolyLine_0 { c with funcs := c.funcs ++ ["PolyLine"] }

/-- One member of the `allow` list, 164-171. -/
def allowOne (hasAst hasBuiltin : String → Bool) (c : Checker) (v : String) : Except Exn Checker :=
  if v = "ast" then .ok (allowAst hasAst c)
  else if v = "builtin" then .ok (allowBuiltin hasBuiltin c)
  else if v = "numpy" then .ok (allowNumpy c)
  else if v = "PolyLine" then .ok (allowPolyLine c)
  else .error .attributeError

/-- `SyntaxChecker(allow)`, 154-171. -/
def mkChecker (hasAst hasBuiltin : String → Bool) (allow : List String) : Except Exn Checker :=
  allow.foldlM (allowOne hasAst hasBuiltin) ⟨[], [], [], ["True", "False", "None"]⟩

/-- The checker used for input files, 1284: `SyntaxChecker(['ast','builtin','numpy','PolyLine'])`. -/
def fileAllow : List String := ["ast", "builtin", "numpy", "PolyLine"]

/-- `make_module_from_text` with a checker (617-628): the tree is executed only if the visit raised nothing; `exec` is opaque. -/
def makeModule {M : Type} (exec : Node → Except Exn M) (c : Checker) (tree : Node) : Except Exn M :=
  match visit c tree with
  | .error e => .error e
  | .ok _ => exec tree

end Geotecha.IO
