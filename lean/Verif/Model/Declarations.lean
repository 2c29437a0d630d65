/-!
# The declarations of the C API used from Python

`scripts/generate-declarations.py` reads `include/equistore.h` with `pycparser` and writes
`equistore/_c_api.py`, where each function of the C API gets the types of its arguments and of its
result, and each structure its fields. This file models that script, from the declarations
`pycparser` gives it to the module it writes; and what importing that module computes.

Simplifications. The expressions of the written module are kept as terms (`PyExpr`) instead of
text: the text is read back by Python as the very term that was written. The constants copied from
`#define` lines are not modelled. `pycparser` itself is not modelled: we start from its tree. The
qualifiers (`const`) that the script never looks at are dropped from that tree.
-/

namespace Equistore.Decl

/-! ## What the script reads -/

/-- A C type, as given by `pycparser` and looked at in `scripts/generate-declarations.py` lines
119-180: a `TypeDecl` of one or several words, of a `struct` or of an `enum`; a `PtrDecl`; an
`ArrayDecl`, whose size is a constant or not; a `FuncDecl`. -/
inductive CType where
  | base (words : List String)
  | struct (tag : String)
  | enum (tag : String)
  | ptr (to : CType)
  | array (of : CType) (size : Option Nat)
  | func (result : CType) (parameters : List CType)

/-- A declaration of the header, as visited in `scripts/generate-declarations.py` lines 41-77.
`arguments` is `none` for an empty pair of parentheses, and the value of an enumerator is `none`
when the header does not write it as a constant. -/
inductive Declaration where
  | function (name : String) (result : CType) (arguments : Option (List CType))
  | variable_ (name : String) (type : CType)
  | typedefStruct (name : String) (tag : Option String) (members : List (String × CType))
  | typedefEnum (name : String) (tag : Option String) (values : List (String × Option Int))
  | typedef (name : String) (type : CType)

/-! ## What the script writes -/

/-- An expression of the written module (`scripts/generate-declarations.py` lines 100-180): a name
of the module, `None`, `ctypes.X`, `POINTER(e)`, `CFUNCTYPE(r, …)` or `e * n`. -/
inductive PyExpr where
  | name (n : String)
  | none
  | ctypes (attr : String)
  | pointer (e : PyExpr)
  | cfunctype (result : PyExpr) (parameters : List PyExpr)
  | times (e : PyExpr) (n : Nat)

/-- What is assigned to `restype` (`scripts/generate-declarations.py` lines 220-224). -/
inductive Restype where
  | checkStatus
  | expr (e : PyExpr)

/-- The written module (`scripts/generate-declarations.py` lines 183-266): assignments of types,
enumerations, structures and functions. -/
structure Module where
  types : List (String × PyExpr)
  enums : List (String × List (String × Int))
  structs : List (String × List (String × PyExpr))
  functions : List (String × List PyExpr × Restype)

/-! ## The script -/

/-- Setting an item of a `dict`, which keeps the place of a key that is already there, as in
`scripts/generate-declarations.py` lines 29, 38 and 77. -/
def setItem {β : Type} (d : List (String × β)) (k : String) (v : β) : List (String × β) :=
  if d.any (fun p => p.1 == k) then d.map (fun p => if p.1 == k then (k, v) else p)
  else d ++ [(k, v)]

/-- `name.startswith("eqs_")` in `scripts/generate-declarations.py` lines 50, 59 and 101. -/
def isOwn (name : String) : Bool :=
  "eqs_".toList.isPrefixOf name.toList

/-- A type the script has put aside: the inner node of a `typedef`, which is a list of words
(`IdentifierType`) or a whole type (`scripts/generate-declarations.py` line 77). -/
inductive Node where
  | words (w : List String)
  | type (t : CType)

/-- The state of `AstVisitor` (`scripts/generate-declarations.py` lines 41-47). -/
structure Visitor where
  functions : List (String × CType × List CType) := []
  enums : List (String × List (String × Int)) := []
  structs : List (String × List (String × CType)) := []
  types : List (String × Node) := []

/-- `AstVisitor.visit_Decl` and `AstVisitor.visit_Typedef`
(`scripts/generate-declarations.py` lines 49-77); `none` is an exception. The node put aside for a
`typedef` is the one *inside* the outermost declarator: `node.type.type`. A declaration that is
not a function has no `args`, and an enumerator without a value no `value.value`. -/
def visit (v : Visitor) : Declaration → Option Visitor
  | .function name result arguments =>
    if isOwn name then
      match arguments with
      | some as => some { v with functions := v.functions ++ [(name, result, as)] }
      | none => none
    else some v
  | .variable_ name _ => if isOwn name then none else some v
  | .typedefEnum name _ values =>
    if isOwn name then
      match values.mapM fun p => p.2.map fun i => (p.1, i) with
      | some vs =>
        some { v with enums := v.enums ++ [(name, vs.foldl (fun d p => setItem d p.1 p.2) [])] }
      | none => none
    else some v
  | .typedefStruct name _ members =>
    if isOwn name then
      some { v with
        structs := v.structs ++ [(name, members.foldl (fun d p => setItem d p.1 p.2) [])] }
    else some v
  | .typedef name type =>
    if isOwn name then
      match type with
      | .base words => some { v with types := setItem v.types name (.words words) }
      | .struct _ => some { v with structs := v.structs ++ [(name, [])] }
      | .enum _ => none
      | .ptr to => some { v with types := setItem v.types name (.type to) }
      | .array of _ => some { v with types := setItem v.types name (.type of) }
      | .func result _ => some { v with types := setItem v.types name (.type result) }
    else some v

/-- `c_type_name` (`scripts/generate-declarations.py` lines 100-116). -/
def cTypeName (name : String) : PyExpr :=
  if isOwn name then .name name
  else if name == "uintptr_t" then .name "c_uintptr_t"
  else if name == "void" then .none
  else if name == "int32_t" then .ctypes "c_int32"
  else if name == "uint32_t" then .ctypes "c_uint32"
  else if name == "int64_t" then .ctypes "c_int64"
  else if name == "uint64_t" then .ctypes "c_uint64"
  else .ctypes ("c_" ++ name)

/-- `_typedecl_name` (`scripts/generate-declarations.py` lines 119-127): the name of a type that
is neither a pointer, an array nor a function; a type of several words is refused. -/
def typedeclName : CType → Option String
  | .struct tag => some tag
  | .enum tag => some tag
  | .base [w] => some w
  | _ => none

mutual

/-- `type_to_ctypes` and `funcdecl_to_ctypes` (`scripts/generate-declarations.py` lines 130-180);
`none` is an exception. -/
def typeToCtypes : CType → Option PyExpr
  | .ptr (.ptr (.ptr t)) =>
    match typedeclName t with
    | some name => if name == "char" then some (.pointer (.pointer (.ctypes "c_char_p"))) else none
    | none => none
  | .ptr (.ptr t) =>
    match typedeclName t with
    | some name =>
      if name == "char" then some (.pointer (.ctypes "c_char_p"))
      else some (.pointer (.pointer (cTypeName name)))
    | none => none
  | .ptr (.func result parameters) =>
    match typeToCtypes result, typesToCtypes parameters with
    | some r, some ps => some (.cfunctype r ps)
    | _, _ => none
  | .ptr t =>
    match typedeclName t with
    | some name =>
      if name == "void" then some (.ctypes "c_void_p")
      else if name == "char" then some (.ctypes "c_char_p")
      else some (.pointer (cTypeName name))
    | none => none
  | .array of size =>
    match typeToCtypes of, size with
    | some e, some n => some (.times e n)
    | _, _ => none
  | .func result parameters =>
    match typeToCtypes result, typesToCtypes parameters with
    | some r, some ps => some (.cfunctype r ps)
    | _, _ => none
  | .base [w] => some (cTypeName w)
  | .base _ => none
  | .struct tag => some (cTypeName tag)
  | .enum tag => some (cTypeName tag)

/-- The list comprehension of `scripts/generate-declarations.py` line 132, and that of line 210. -/
def typesToCtypes : List CType → Option (List PyExpr)
  | [] => some []
  | t :: ts =>
    match typeToCtypes t, typesToCtypes ts with
    | some e, some es => some (e :: es)
    | _, _ => none

end

/-- `type_to_ctypes` of a node that was put aside: only the first word of an `IdentifierType` is
looked at (`scripts/generate-declarations.py` lines 168-169). -/
def Node.toCtypes : Node → Option PyExpr
  | .words (w :: _) => some (cTypeName w)
  | .words [] => none
  | .type t => typeToCtypes t

/-- Whether an argument is `"None"` (`scripts/generate-declarations.py` line 213). -/
def PyExpr.isNone : PyExpr → Bool
  | .none => true
  | _ => false

/-- One function of `generate_functions` (`scripts/generate-declarations.py` lines 204-224). -/
def generateFunction (f : String × CType × List CType) :
    Option (String × List PyExpr × Restype) :=
  match typesToCtypes f.2.2, typeToCtypes f.2.1 with
  | some args, some r =>
    let args := match args with
      | [a] => if a.isNone then [] else [a]
      | as => as
    let restype := match r with
      | .name n => if n == "eqs_status_t" then Restype.checkStatus else .expr (.name n)
      | e => .expr e
    some (f.1, args, restype)
  | _, _ => none

/-- One structure of `generate_structs` (`scripts/generate-declarations.py` lines 190-201). -/
def generateStruct (s : String × List (String × CType)) :
    Option (String × List (String × PyExpr)) :=
  match s.2.mapM fun m => (typeToCtypes m.2).map fun e => (m.1, e) with
  | some fields => some (s.1, fields)
  | none => none

/-- `generate_declarations` (`scripts/generate-declarations.py` lines 80-97 and 227-266): the
module written for a header, or `none` when the script stops with an exception. -/
def generate (header : List Declaration) : Option Module := do
  let v ← header.foldlM visit {}
  let types ← v.types.mapM fun p => (p.2.toCtypes).map fun e => (p.1, e)
  let structs ← v.structs.mapM generateStruct
  let functions ← v.functions.mapM generateFunction
  pure { types, enums := v.enums, structs, functions }

end Equistore.Decl
