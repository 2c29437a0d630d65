import Verif.Model.Declarations

/-!
# What declarations mean

An independent account of what C and `ctypes` mean by a type: both are sent to a common description
of the values that cross the boundary (`Shape`). The C side is the C standard, restricted to the
types a header of this kind can use; the Python side is the table of the documentation of `ctypes`.
-/

namespace Equistore.Decl

/-- The size of a number: a number of bytes, or something that depends on the machine. Keeping the
latter symbolic means that shapes which agree do so on every machine. -/
inductive Size where
  | bytes (n : Nat)
  | pointer
  | long
  | longDouble
  deriving DecidableEq

/-- What is exchanged through a C function: numbers of which size, read in which way, and what a
pointer points to. Structures and enumerations are known by name. -/
inductive Shape where
  | void
  | char
  | bool
  | integer (signed : Bool) (size : Size)
  | floating (size : Size)
  | pointer (to : Shape)
  | function (result : Shape) (parameters : List Shape)
  | array (of : Shape) (n : Nat)
  | record (name : String)
  | enumeration (name : String)

/-- Names in scope, the latest first. -/
abbrev Env := List (String × Shape)

/-! ## C -/

/-- The types of the C language and of the standard headers, by the words that spell them. -/
def standard : List (List String × Shape) :=
  [(["void"], .void),
   (["char"], .char),
   (["_Bool"], .bool),
   (["bool"], .bool),
   (["short"], .integer true (.bytes 2)),
   (["int"], .integer true (.bytes 4)),
   (["signed"], .integer true (.bytes 4)),
   (["unsigned"], .integer false (.bytes 4)),
   (["long"], .integer true .long),
   (["float"], .floating (.bytes 4)),
   (["double"], .floating (.bytes 8)),
   (["size_t"], .integer false .pointer),
   (["ssize_t"], .integer true .pointer),
   (["intptr_t"], .integer true .pointer),
   (["uintptr_t"], .integer false .pointer),
   (["int8_t"], .integer true (.bytes 1)),
   (["uint8_t"], .integer false (.bytes 1)),
   (["int16_t"], .integer true (.bytes 2)),
   (["uint16_t"], .integer false (.bytes 2)),
   (["int32_t"], .integer true (.bytes 4)),
   (["uint32_t"], .integer false (.bytes 4)),
   (["int64_t"], .integer true (.bytes 8)),
   (["uint64_t"], .integer false (.bytes 8)),
   (["signed", "char"], .integer true (.bytes 1)),
   (["unsigned", "char"], .integer false (.bytes 1)),
   (["short", "int"], .integer true (.bytes 2)),
   (["unsigned", "short"], .integer false (.bytes 2)),
   (["unsigned", "int"], .integer false (.bytes 4)),
   (["int", "unsigned"], .integer false (.bytes 4)),
   (["long", "int"], .integer true .long),
   (["unsigned", "long"], .integer false .long),
   (["long", "long"], .integer true (.bytes 8)),
   (["unsigned", "long", "long"], .integer false (.bytes 8)),
   (["long", "double"], .floating .longDouble)]

/-- C adjusts the type of a parameter: an array is passed as a pointer to its first element, and a
function as a pointer to it. -/
def adjust : Shape → Shape
  | .array s _ => .pointer s
  | .function r ps => .pointer (.function r ps)
  | s => s

/-- A list of parameters that is just `void` is empty. -/
def withoutVoid : List Shape → List Shape
  | [.void] => []
  | ps => ps

/-- Whether values of this type exist: they can be elements of an array or members of a
structure. -/
def isObject : Shape → Bool
  | .void => false
  | .function _ _ => false
  | _ => true

/-- Whether a function can return it. -/
def isResult : Shape → Bool
  | .array _ _ => false
  | .function _ _ => false
  | _ => true

/-- `s` if the condition holds of it. -/
def keepIf (p : Shape → Bool) (s : Shape) : Option Shape :=
  if p s then some s else none

mutual

/-- What a C type means, with some `typedef`s in scope; `none` when it is not a valid type. -/
def meaning (env : Env) : CType → Option Shape
  | .base words =>
    match words with
    | [w] => match env.lookup w with
      | some s => some s
      | none => standard.lookup [w]
    | ws => standard.lookup ws
  | .struct tag => some (.record tag)
  | .enum tag => some (.enumeration tag)
  | .ptr to => (meaning env to).map .pointer
  | .array of size =>
    match (meaning env of).bind (keepIf isObject), size with
    | some s, some n => some (.array s n)
    | _, _ => none
  | .func result parameters =>
    match (meaning env result).bind (keepIf isResult), parametersMeaning env parameters with
    | some r, some ps => some (.function r (withoutVoid ps))
    | _, _ => none

/-- What a list of parameters means. -/
def parametersMeaning (env : Env) : List CType → Option (List Shape)
  | [] => some []
  | t :: ts =>
    match meaning env t, parametersMeaning env ts with
    | some s, some ss => some (adjust s :: ss)
    | _, _ => none

end

/-- The `typedef`s of a header, each understood with those before it. -/
def typedefs : List Declaration → Env → Option Env
  | [], env => some env
  | .typedef name type :: ds, env =>
    match meaning env type with
    | some s => typedefs ds ((name, s) :: env)
    | none => none
  | .typedefStruct name tag _ :: ds, env => typedefs ds ((name, .record (tag.getD name)) :: env)
  | .typedefEnum name tag _ :: ds, env =>
    typedefs ds ((name, .enumeration (tag.getD name)) :: env)
  | _ :: ds, env => typedefs ds env

/-- What is declared: functions, with the shapes of their arguments and of their result, and
structures, with their fields. -/
structure Interface where
  functions : List (String × List Shape × Shape)
  structs : List (String × List (String × Shape))

/-- The functions of a header whose name starts with `eqs_`. -/
def functionsOf (header : List Declaration) : List (String × CType × Option (List CType)) :=
  header.filterMap fun d => match d with
    | .function name result arguments => if isOwn name then some (name, result, arguments) else none
    | _ => none

/-- The structures of a header whose name starts with `eqs_`; one that is only declared has no
members. -/
def structsOf (header : List Declaration) : List (String × List (String × CType)) :=
  header.filterMap fun d => match d with
    | .typedefStruct name _ members => if isOwn name then some (name, members) else none
    | .typedef name (.struct _) => if isOwn name then some (name, []) else none
    | _ => none

/-- What a function of a header is in C. -/
def functionMeaning (env : Env) (f : String × CType × Option (List CType)) :
    Option (String × List Shape × Shape) :=
  match f.2.2 with
  | none => none
  | some arguments =>
    match (meaning env f.2.1).bind (keepIf isResult), parametersMeaning env arguments with
    | some r, some ps => some (f.1, withoutVoid ps, r)
    | _, _ => none

/-- What a structure of a header is in C. -/
def structMeaning (env : Env) (s : String × List (String × CType)) :
    Option (String × List (String × Shape)) :=
  match s.2.mapM fun m => ((meaning env m.2).bind (keepIf isObject)).map fun x => (m.1, x) with
  | some fields => some (s.1, fields)
  | none => none

/-- What a header declares in C, or `none` when it is not valid. -/
def inC (header : List Declaration) : Option Interface := do
  let env ← typedefs header []
  let functions ← (functionsOf header).mapM (functionMeaning env)
  let structs ← (structsOf header).mapM (structMeaning env)
  pure { functions, structs }

/-! ## Python -/

/-- The types of `ctypes`, with the C type its documentation gives for each. -/
def ctypesType : List (String × Shape) :=
  [("c_bool", .bool),
   ("c_char", .char),
   ("c_byte", .integer true (.bytes 1)),
   ("c_ubyte", .integer false (.bytes 1)),
   ("c_short", .integer true (.bytes 2)),
   ("c_ushort", .integer false (.bytes 2)),
   ("c_int", .integer true (.bytes 4)),
   ("c_uint", .integer false (.bytes 4)),
   ("c_long", .integer true .long),
   ("c_ulong", .integer false .long),
   ("c_longlong", .integer true (.bytes 8)),
   ("c_ulonglong", .integer false (.bytes 8)),
   ("c_size_t", .integer false .pointer),
   ("c_ssize_t", .integer true .pointer),
   ("c_int8", .integer true (.bytes 1)),
   ("c_uint8", .integer false (.bytes 1)),
   ("c_int16", .integer true (.bytes 2)),
   ("c_uint16", .integer false (.bytes 2)),
   ("c_int32", .integer true (.bytes 4)),
   ("c_uint32", .integer false (.bytes 4)),
   ("c_int64", .integer true (.bytes 8)),
   ("c_uint64", .integer false (.bytes 8)),
   ("c_float", .floating (.bytes 4)),
   ("c_double", .floating (.bytes 8)),
   ("c_longdouble", .floating .longDouble),
   ("c_char_p", .pointer .char),
   ("c_void_p", .pointer .void)]

/-- Whether it is a type of `ctypes`: neither `None` nor a class of `enum`. -/
def isCtypes : Shape → Bool
  | .void => false
  | .enumeration _ => false
  | _ => true

/-- Whether it is `None` or a type of `ctypes`. -/
def notEnumeration : Shape → Bool
  | .enumeration _ => false
  | _ => true

mutual

/-- What an expression of the module means, with some names defined; `none` when Python raises an
exception. `c_uintptr_t` is defined at the top of the module, from the size of a pointer
(`platform.architecture`). `POINTER(None)` is `c_void_p`. -/
def value (env : Env) : PyExpr → Option Shape
  | .name n => if n == "c_uintptr_t" then some (.integer false .pointer) else env.lookup n
  | .none => some .void
  | .ctypes a => ctypesType.lookup a
  | .pointer e => ((value env e).bind (keepIf notEnumeration)).map .pointer
  | .cfunctype r ps =>
    match (value env r).bind (keepIf notEnumeration), values env ps with
    | some r, some ps => some (.pointer (.function r ps))
    | _, _ => none
  | .times e n => ((value env e).bind (keepIf isCtypes)).map fun s => .array s n

/-- The arguments of `CFUNCTYPE`, which all have to be types of `ctypes`. -/
def values (env : Env) : List PyExpr → Option (List Shape)
  | [] => some []
  | e :: es =>
    match (value env e).bind (keepIf isCtypes), values env es with
    | some s, some ss => some (s :: ss)
    | _, _ => none

end

/-- An item of `argtypes`: an array is passed as a pointer to its first element. -/
def argument (env : Env) (e : PyExpr) : Option Shape :=
  ((value env e).bind (keepIf isCtypes)).map fun s => match s with
    | .array s _ => .pointer s
    | s => s

/-- A `restype`: a function is called with a result that is read as a C `int`. -/
def result (env : Env) : Restype → Option Shape
  | .checkStatus => some (.integer true (.bytes 4))
  | .expr e => value env e

/-- Running the assignments of the types. -/
def importTypes : List (String × PyExpr) → Env → Option Env
  | [], env => some env
  | (n, e) :: rest, env =>
    match value env e with
    | some s => importTypes rest ((n, s) :: env)
    | none => none

/-- Defining the classes of the enumerations. -/
def importEnums (enums : List (String × List (String × Int))) (env : Env) : Env :=
  enums.foldl (fun env p => (p.1, .enumeration p.1) :: env) env

/-- Defining the classes of the structures, each followed by its fields. -/
def importStructs : List (String × List (String × PyExpr)) → Env →
    Option (Env × List (String × List (String × Shape)))
  | [], env => some (env, [])
  | (n, fields) :: rest, env =>
    let env := (n, .record n) :: env
    match fields.mapM fun m => ((value env m.2).bind (keepIf isCtypes)).map fun x => (m.1, x) with
    | none => none
    | some fields =>
      match importStructs rest env with
      | some (env, structs) => some (env, (n, fields) :: structs)
      | none => none

/-- One function of `setup_functions`. -/
def importFunction (env : Env) (f : String × List PyExpr × Restype) :
    Option (String × List Shape × Shape) :=
  match f.2.1.mapM (argument env), result env f.2.2 with
  | some args, some r => some (f.1, args, r)
  | _, _ => none

/-- What is declared by importing the module and calling `setup_functions`, or `none` when Python
raises an exception. -/
def inPython (m : Module) : Option Interface := do
  let env ← importTypes m.types []
  let (env, structs) ← importStructs m.structs (importEnums m.enums env)
  let functions ← m.functions.mapM (importFunction env)
  pure { functions, structs }

/-! ## Headers written in the usual way -/

/-- Whether it is written as an array type. -/
def CType.isArray : CType → Bool
  | .array _ _ => true
  | _ => false

mutual

/-- Every parameter of a function a type mentions is written without an array. -/
def noArrays : CType → Bool
  | .base _ => true
  | .struct _ => true
  | .enum _ => true
  | .ptr to => noArrays to
  | .array of _ => noArrays of
  | .func result parameters => noArrays result && noArrayParameters parameters

/-- None of these parameters is an array, nor mentions a function with an array. -/
def noArrayParameters : List CType → Bool
  | [] => true
  | t :: ts => !t.isArray && noArrays t && noArrayParameters ts

end

mutual

/-- The tags `struct …` of a type. -/
def structTags : CType → List String
  | .base _ => []
  | .struct tag => [tag]
  | .enum _ => []
  | .ptr to => structTags to
  | .array of _ => structTags of
  | .func result parameters => structTags result ++ structTagsList parameters

/-- The tags `struct …` of several types. -/
def structTagsList : List CType → List String
  | [] => []
  | t :: ts => structTags t ++ structTagsList ts

end

mutual

/-- The tags `enum …` of a type. -/
def enumTags : CType → List String
  | .base _ => []
  | .struct _ => []
  | .enum tag => [tag]
  | .ptr to => enumTags to
  | .array of _ => enumTags of
  | .func result parameters => enumTags result ++ enumTagsList parameters

/-- The tags `enum …` of several types. -/
def enumTagsList : List CType → List String
  | [] => []
  | t :: ts => enumTags t ++ enumTagsList ts

end

/-- The names a header gives with `typedef`. -/
def typedefNames (header : List Declaration) : List String :=
  header.filterMap fun d => match d with
    | .typedef name _ => some name
    | .typedefStruct name _ _ => some name
    | .typedefEnum name _ _ => some name
    | _ => none

/-- The types a declaration mentions. -/
def Declaration.mentions : Declaration → List CType
  | .function _ result arguments => result :: arguments.getD []
  | .variable_ _ type => [type]
  | .typedefStruct _ _ members => members.map (·.2)
  | .typedefEnum _ _ _ => []
  | .typedef _ type => [type]

/-- The types of several words the first of which is not mistaken for the type: it means the same
alone, or `ctypes` has no type of that name (there is no `c_signed` and no `c_unsigned`), so that
importing the module raises an exception. -/
def firstWordIsEnough : List (List String) :=
  [["short", "int"], ["long", "int"], ["signed", "char"], ["unsigned", "char"],
   ["unsigned", "short"], ["unsigned", "int"], ["unsigned", "long"], ["unsigned", "long", "long"]]

/-- The `typedef`s the script understands: of a type of one word, or of several words the first of
which is enough, of a structure under its own tag, or of a pointer to a function. -/
def simpleTypedef (name : String) : CType → Bool
  | .base [_] => true
  | .base ws => firstWordIsEnough.contains ws
  | .struct tag => tag == name
  | .ptr (.func _ _) => true
  | _ => false

/-- A header written in the way the generator of `equistore.h` does: every `typedef` is simple and
has a name starting with `eqs_`, different from all others; structures and enumerations have the
tag of their `typedef`, or none, and are only mentioned by such a tag; the members of a structure
have different names; no parameter of a function pointer is an array; and `eqs_status_t` is a
signed integer of 32 bits. -/
structure Usual (header : List Declaration) : Prop where
  names : (typedefNames header).Nodup
  own : ∀ n ∈ typedefNames header, isOwn n = true
  simple : ∀ n t, Declaration.typedef n t ∈ header → simpleTypedef n t = true
  structs : ∀ n tag ms, Declaration.typedefStruct n tag ms ∈ header → tag.getD n = n
  enums : ∀ n tag vs, Declaration.typedefEnum n tag vs ∈ header → tag.getD n = n
  members : ∀ n tag ms, Declaration.typedefStruct n tag ms ∈ header → (ms.map (·.1)).Nodup
  arrays : ∀ d ∈ header, ∀ t ∈ d.mentions, noArrays t = true
  structTags : ∀ d ∈ header, ∀ t ∈ d.mentions, ∀ tag ∈ structTags t,
    Declaration.typedef tag (.struct tag) ∈ header ∨
      ∃ tag' ms, Declaration.typedefStruct tag tag' ms ∈ header
  enumTags : ∀ d ∈ header, ∀ t ∈ d.mentions, ∀ tag ∈ enumTags t,
    ∃ tag' vs, Declaration.typedefEnum tag tag' vs ∈ header
  status : ∀ env s, typedefs header [] = some env → env.lookup "eqs_status_t" = some s →
    s = .integer true (.bytes 4)

end Equistore.Decl
