import Verif.Model.Loop
/-!
Model of `research::ResidualNeuralNetwork<float>` (/repo/include/rad_ml/research/residual_network.hpp): the skip connections, their file format and what `forward` does with them.

* Characters and file contents are bytes (`BitVec 8`); the unordered map is a list of entries, and whoever iterates over it does so in an arbitrary order (a parameter).
* The inherited network (modelled in ProtectedNetwork) is a parameter: its layer count and its forward pass.
* Projections are elements of a type `P` with a distinguished identity.
* Of `MultibitProtection` only its presence is kept (nothing else of it is read).
* A file is read as `std::ifstream::read` does: as many bytes as there are, the rest of the variable is left as it was, and after a short read nothing is read any more.  Reading a variable that was never set is undefined.
* A container larger than `cap` cannot be allocated; the exception is caught.
-/
namespace Verif.ResidualNet

/-- A character or byte. -/
abbrev Byte := BitVec 8

/-- The character of a decimal digit. -/
def digit (d : Nat) : Byte := BitVec.ofNat 8 (48 + d)

/-- `std::to_string` of an unsigned number (residual_network.hpp:276). -/
def dec (n : Nat) : List Byte := if _h : n < 10 then [digit n] else dec (n / 10) ++ [digit (n % 10)]

/-- `makeConnectionKey` (residual_network.hpp:273-277). -/
def key (src dst : Nat) : List Byte := dec src ++ [45#8, 62#8] ++ dec dst

/-- White space of `std::stoull`. -/
def isSpace (c : Byte) : Bool := c == 32#8 || (9#8 ≤ c && c ≤ 13#8)

/-- Decimal digit. -/
def isDigit (c : Byte) : Bool := 48#8 ≤ c && c ≤ 57#8

/-- The value of digits. -/
def value (l : List Byte) : Nat := l.foldl (fun a c => 10 * a + (c.toNat - 48)) 0

/-- Digits as `std::stoull` reads them: `none` if there is none or the value does not fit (an exception). -/
def digits (l : List Byte) : Option Nat :=
  let d := l.takeWhile isDigit
  if d = [] then none else if value d < 2 ^ 64 then some (value d) else none

/-- `std::stoull` (residual_network.hpp:409-410): optional white space and sign, digits, rest ignored. -/
def stoull (l : List Byte) : Option Nat :=
  match l.dropWhile isSpace with
  | c :: t => if c = 43#8 then digits t else if c = 45#8 then (digits t).map fun v => (2 ^ 64 - v) % 2 ^ 64 else digits (c :: t)
  | [] => none

/-- `key.find("->")` and the two `substr` (residual_network.hpp:408-410): what is before the first arrow and what is after it. -/
def splitArrow : List Byte → Option (List Byte × List Byte)
  | [] => none
  | [_] => none
  | a :: b :: t => if a = 45#8 ∧ b = 62#8 then some ([], t) else (splitArrow (b :: t)).map fun x => (a :: x.1, x.2)

/-- Parsing of one key in `getSkipConnections` (residual_network.hpp:406-413); `none` is an exception.  Without an arrow the second part begins at character 1 (`npos + 2`). -/
def parse (k : List Byte) : Option (Nat × Nat) :=
  match splitArrow k with
  | some (a, b) => (stoull a).bind fun x => (stoull b).map fun y => (x, y)
  | none => if k = [] then none else (stoull k).bind fun x => (stoull (k.drop 1)).map fun y => (x, y)

/-- `SkipConnection` (residual_network.hpp:162-173). -/
structure Conn (P : Type) where
  proj : P
  weights : List (BitVec 32) := []
  prot : Bool := false
  deriving DecidableEq, Repr

/-- The network: what it inherits, and `skip_connections_` (residual_network.hpp:176). -/
structure Net (P I O : Type) where
  layers : Nat
  base : I → Rat → O
  conns : List (List Byte × Conn P) := []

variable {P I O : Type}

/-- `skip_connections_[key] = …` (residual_network.hpp:308, 646). -/
def put (m : List (List Byte × Conn P)) (k : List Byte) (c : Conn P) : List (List Byte × Conn P) :=
  if m.any (·.1 = k) then m.map fun e => if e.1 = k then (k, c) else e else m ++ [(k, c)]

/-- `addSkipConnection` (residual_network.hpp:279-310).  `getLayerSizes` has one (zero) entry per layer; without layers both subtractions wrap around, but `to_layer >= 0` refuses. -/
def Net.add (one : P) (n : Net P I O) (src dst : Nat) : Bool × Net P I O :=
  if src ≥ (if n.layers = 0 then 2 ^ 64 - 1 else n.layers - 1) ∨ dst ≥ n.layers then (false, n)
  else if src ≥ dst then (false, n)
  else (true, { n with conns := put n.conns (key src dst) { proj := one } })

/-- `removeSkipConnection` (residual_network.hpp:312-322). -/
def Net.remove (n : Net P I O) (src dst : Nat) : Bool × Net P I O :=
  if n.conns.any (·.1 = key src dst) then (true, { n with conns := n.conns.filter (·.1 ≠ key src dst) }) else (false, n)

/-- `setSkipProjection` (residual_network.hpp:324-334). -/
def Net.project (n : Net P I O) (src dst : Nat) (p : P) : Net P I O :=
  { n with conns := n.conns.map fun e => if e.1 = key src dst then (e.1, { e.2 with proj := p }) else e }

/-- `forward` (residual_network.hpp:336-357); `applyRadiationToSkipConnections` (lines 359-378) changes nothing. -/
def Net.forward (n : Net P I O) (input : I) (level : Rat) : O := n.base input level

/-- `getSkipConnectionCount` (residual_network.hpp:394-398). -/
def Net.count (n : Net P I O) : Nat := n.conns.length

/-- `getSkipConnections` (residual_network.hpp:400-416) for the order `order` of the map; `none` is an exception. -/
def Net.list (order : List (List Byte) → List (List Byte)) (n : Net P I O) : Option (List (Nat × Nat)) :=
  (order (n.conns.map (·.1))).mapM parse

/-- Copy construction and assignment (residual_network.hpp:217-262): the base is copied by the base class; entries are copied one by one in some order into an empty map. -/
def copyConns (l : List (List Byte × Conn P)) : List (List Byte × Conn P) :=
  l.foldl (fun m e => put m e.1 { proj := e.2.proj, weights := e.2.weights, prot := e.2.prot }) []

/-- `a = b`. -/
def Net.assign (order : List (List Byte × Conn P) → List (List Byte × Conn P)) (_self other : Net P I O) : Net P I O :=
  { layers := other.layers, base := other.base, conns := copyConns (order other.conns) }

/-! ### Files -/

/-- The low `k` bytes of a number, least significant first: the memory of an unsigned integer. -/
def le : Nat → Nat → List Byte
  | 0, _ => []
  | k + 1, n => BitVec.ofNat 8 n :: le k (n / 256)

/-- The number in memory. -/
def unle : List Byte → Nat
  | [] => 0
  | b :: t => b.toNat + 256 * unle t

/-- Bytes of one connection (residual_network.hpp:533-550). -/
def encConn (e : List Byte × Conn P) : List Byte :=
  le 8 e.1.length ++ e.1 ++ le 8 e.2.weights.length ++ (e.2.weights.map fun w => le 4 w.toNat).flatten ++ [if e.2.prot then 1#8 else 0#8]

/-- `saveToFile` (residual_network.hpp:496-563): `saveState` is empty (lines 472-478), so no layer is written. -/
def Net.save (order : List (List Byte × Conn P) → List (List Byte × Conn P)) (n : Net P I O) : List Byte :=
  le 8 0 ++ le 8 n.conns.length ++ ((order n.conns).map encConn).flatten

/-- `saveToFile` on a device with room for `room` bytes: no write is checked, so it always reports success (residual_network.hpp:510-556). -/
def Net.saveOn (room : Nat) (order : List (List Byte × Conn P) → List (List Byte × Conn P)) (n : Net P I O) : Bool × List Byte := (true, (n.save order).take room)

/-- An input stream: what is left, and whether a read has failed. -/
structure In where
  rest : List Byte
  good : Bool := true

/-- `file.read(p, k)`: the bytes that arrive. -/
def In.read (s : In) (k : Nat) : List Byte × In :=
  if !s.good then ([], s)
  else if k ≤ s.rest.length then (s.rest.take k, { s with rest := s.rest.drop k })
  else (s.rest, { rest := [], good := false })

/-- `file.read` into an initialised variable of `k` bytes. -/
def In.readOver (s : In) (k : Nat) (old : Nat) : Nat × In :=
  let r := s.read k
  (unle (r.1 ++ (le k old).drop r.1.length), r.2)

/-- `file.read` into a `size_t` that is not initialised. -/
def In.readFresh (s : In) : Outcome (Nat × In) :=
  let r := s.read 8
  if r.1.length = 8 then .ok (unle r.1, r.2) else .ub

/-- How a part of `loadFromFile` ends: with the stream, or with an exception. -/
inductive Step (A : Type) where
  | done (a : A)
  | threw (a : A)

/-- Weights of one neuron (residual_network.hpp:588-595). -/
def skipNeuron (cap : Nat) (s : In) : Outcome (Step In) :=
  s.readFresh.bind fun r =>
    if r.1 > cap then .ok (.threw r.2) else .ok (.done (if r.1 > 0 then (r.2.read (r.1 * 4)).2 else r.2))

/-- The neurons of a layer (residual_network.hpp:587-596). -/
def skipNeurons (cap : Nat) : Nat → In → Outcome (Step In)
  | 0, s => .ok (.done s)
  | k + 1, s => (skipNeuron cap s).bind fun r => match r with
    | .done s => skipNeurons cap k s
    | .threw s => .ok (.threw s)

/-- The layers (residual_network.hpp:582-597). -/
def skipLayers (cap : Nat) : Nat → In → Outcome (Step In)
  | 0, s => .ok (.done s)
  | k + 1, s => s.readFresh.bind fun r =>
    if r.1 > cap then .ok (.threw r.2)
    else (skipNeurons cap r.1 r.2).bind fun r => match r with
      | .done s => skipLayers cap k s
      | .threw s => .ok (.threw s)

/-- `k` words of 4 bytes. -/
def words : Nat → List Byte → List (BitVec 32)
  | 0, _ => []
  | k + 1, l => BitVec.ofNat 32 (unle (l.take 4)) :: words k (l.drop 4)

/-- The connections (residual_network.hpp:611-647): the map afterwards; `threw` if an allocation failed.  A byte other than 0 and 1 for `has_protection` (undefined for a `bool`) counts as true. -/
def loadConns (one : P) (cap : Nat) : Nat → In → List (List Byte × Conn P) → Step (List (List Byte × Conn P))
  | 0, _, m => .done m
  | k + 1, s, m =>
    let l := s.readOver 8 0
    if l.1 > cap then .threw m
    else
      let t := l.2.read l.1
      let name := t.1 ++ List.replicate (l.1 - t.1.length) 32#8
      let c := t.2.readOver 8 0
      if c.1 > cap then .threw m
      else
        let d := if c.1 > 0 then c.2.read (c.1 * 4) else ([], c.2)
        let ws := words c.1 (d.1 ++ List.replicate (c.1 * 4 - d.1.length) 0#8)
        let b := d.2.readOver 1 0
        loadConns one cap k b.2 (put m name { proj := one, weights := ws, prot := decide (b.1 ≠ 0) })

/-- `loadFromFile` of a file that can be opened (residual_network.hpp:565-656). -/
def Net.load (one : P) (cap : Nat) (n : Net P I O) (file : List Byte) : Outcome (Bool × Net P I O) :=
  (In.readFresh { rest := file }).bind fun r =>
    if r.1 > cap then .ok (false, n)
    else (skipLayers cap r.1 r.2).bind fun r => match r with
      | .threw _ => .ok (false, n)
      | .done s =>
        let c := s.readOver 8 0
        match loadConns one cap c.1 c.2 [] with
        | .done m => .ok (true, { n with conns := m })
        | .threw m => .ok (false, { n with conns := m })

/-! ### Loss -/

/-- `calculateLoss` (residual_network.hpp:448-470) on the output of `forward`, in exact arithmetic. -/
def loss (output labels : List Rat) : Rat :=
  let s := (output.zip labels).foldl (fun a x => a + (x.1 - x.2) * (x.1 - x.2)) 0
  if output = [] then s else s / output.length

/-- `evaluate` (residual_network.hpp:436-446). -/
def evaluate (output labels : List Rat) : Rat := 1 - loss output labels

/-- `train` (residual_network.hpp:420-434): the network as it was, and the loss; the output of `forward` may depend on the call (radiation statistics). -/
def Net.train (n : Net P (List Rat) (List Rat)) (data labels : List Rat) (epochs : Nat) : Rat × Net P (List Rat) (List Rat) :=
  (forN epochs (fun _ _ => loss (n.forward data 0) labels) 0, n)

end Verif.ResidualNet
