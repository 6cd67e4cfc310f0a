import Verif.Run

/-!
# Model of the registries for communication protocols and parameter types

`/repo/src/libvisr/communication_protocol_factory.cpp`, `/repo/src/libvisr/parameter_factory.{hpp,cpp}`.

A `std::map` is modelled by an association list.  The order of its entries is not modelled: it is
visible only through `typeFromName`, which returns the first match, and the theorems show that
there is never more than one match.  The three creation functions stored for a protocol are
abstract values of types `P`, `I` and `O`.  Names are strings without embedded null characters
(they are constructed from `char const *`), so that `strcmp` is equality.
-/

namespace Visr.Registry

/-- `CommunicationProtocolFactory::Creator`: name and creation functions
(communication_protocol_factory.cpp:56-66). -/
structure Creator (P I O : Type u) where
  /-- `mName`. -/
  name : String
  /-- `mCreateFunction`. -/
  protocol : P
  /-- `mInputCreateFunction`. -/
  input : I
  /-- `mOutputCreateFunction`. -/
  output : O
deriving DecidableEq

/-- `CreatorTable` (`std::map< CommunicationProtocolType, Creator >`); types are numbers. -/
abbrev Table (P I O : Type u) := List (Nat × Creator P I O)

variable {P I O : Type u}

/-- `table.find( type )`. -/
def lookup (tab : Table P I O) (type : Nat) : Option (Creator P I O) :=
  (tab.find? (fun e => e.1 == type)).map Prod.snd

/-- `registerCommunicationProtocol` (communication_protocol_factory.cpp:18-42). -/
def register (tab : Table P I O) (type : Nat) (c : Creator P I O) : Outcome (Table P I O) :=
  if (lookup tab type).isSome then .throw .invalidArgument
  else if (tab.find? (fun e => e.2.name == c.name)).isSome then .throw .invalidArgument
  else .ok ((type, c) :: tab)

/-- `unregisterCommunicationProtocol` (communication_protocol_factory.cpp:44-53): erasing an
iterator removes the one entry with this key. -/
def unregister (tab : Table P I O) (type : Nat) : Table P I O :=
  tab.eraseP (fun e => e.1 == type)

/-- `createProtocol` (communication_protocol_factory.cpp:93-106): which creation function is
called. -/
def createProtocol (tab : Table P I O) (type : Nat) : Outcome P :=
  match lookup tab type with
  | none => .throw .outOfRange
  | some c => .ok c.protocol

/-- `createInput` (communication_protocol_factory.cpp:108-119). -/
def createInput (tab : Table P I O) (type : Nat) : Outcome I :=
  match lookup tab type with
  | none => .throw .outOfRange
  | some c => .ok c.input

/-- `createOutput` (communication_protocol_factory.cpp:121-132). -/
def createOutput (tab : Table P I O) (type : Nat) : Outcome O :=
  match lookup tab type with
  | none => .throw .outOfRange
  | some c => .ok c.output

/-- `numberOfProtocols` (communication_protocol_factory.cpp:135-138). -/
def numberOfProtocols (tab : Table P I O) : Nat := tab.length

/-- `typeFromName` (communication_protocol_factory.cpp:140-150). -/
def typeFromName (tab : Table P I O) (name : String) : Outcome Nat :=
  match tab.find? (fun e => e.2.name == name) with
  | none => .throw .outOfRange
  | some e => .ok e.1

/-- `typeToName` (communication_protocol_factory.cpp:152-161). -/
def typeToName (tab : Table P I O) (type : Nat) : Outcome String :=
  match lookup tab type with
  | none => .throw .outOfRange
  | some c => .ok c.name

/-- `typeExists` (communication_protocol_factory.cpp:163-167). -/
def typeExists (tab : Table P I O) (type : Nat) : Bool := (lookup tab type).isSome

/-- The calls that change the table. -/
inductive Op (P I O : Type u) where
  | register (type : Nat) (c : Creator P I O)
  | unregister (type : Nat)

/-- One call.  A throwing call leaves the table as it is. -/
def step (tab : Table P I O) : Op P I O → Table P I O × Outcome Unit
  | .register type c =>
    match register tab type c with
    | .ok tab' => (tab', .ok ())
    | .throw e => (tab, .throw e)
    | .ub => (tab, .ub)
  | .unregister type => (unregister tab type, .ok ())

/-- The table (a function-local static, initially empty, :84-89) after a history of calls. -/
def table (ops : List (Op P I O)) : Table P I O := final step [] ops

/-! ## Parameter types -/

/-- `ParameterFactory::CreatorTable` (parameter_factory.hpp:121-131). -/
abbrev PTable (F : Type u) := List (Nat × F)

variable {F : Type u}

/-- `table.find( type )`. -/
def plookup (tab : PTable F) (type : Nat) : Option F :=
  (tab.find? (fun e => e.1 == type)).map Prod.snd

/-- `registerParameterType` (parameter_factory.hpp:136-140): `std::map::insert` keeps an entry
that is already there, and its result is ignored. -/
def pregister (tab : PTable F) (type : Nat) (f : F) : PTable F :=
  if (plookup tab type).isSome then tab else (type, f) :: tab

/-- `unregisterParameterType` (parameter_factory.hpp:148-157). -/
def punregister (tab : PTable F) (type : Nat) : PTable F :=
  tab.eraseP (fun e => e.1 == type)

/-- `ParameterFactory::create` (parameter_factory.cpp:56-67): which creation function is called. -/
def pcreate (tab : PTable F) (type : Nat) : Outcome F :=
  match plookup tab type with
  | none => .throw .invalidArgument
  | some f => .ok f

/-- `ParameterFactory::typeExists` (parameter_factory.cpp:75-79). -/
def ptypeExists (tab : PTable F) (type : Nat) : Bool := (plookup tab type).isSome

/-- `numberOfParameterTypes` (parameter_factory.cpp:69-72). -/
def pnumber (tab : PTable F) : Nat := tab.length

/-- The calls that change the table of parameter types. -/
inductive POp (F : Type u) where
  | register (type : Nat) (f : F)
  | unregister (type : Nat)

/-- One call on the table of parameter types. -/
def pstep (tab : PTable F) : POp F → PTable F × Unit
  | .register type f => (pregister tab type f, ())
  | .unregister type => (punregister tab type, ())

/-- The table of parameter types after a history of calls. -/
def ptable (ops : List (POp F)) : PTable F := final pstep [] ops

end Visr.Registry
