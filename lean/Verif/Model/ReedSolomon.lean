import Verif.Model.Loop
import Verif.Model.GaloisField
/-!
Model of `AdvancedReedSolomon<T, SymbolSize, ECCSymbols>` (include/rad_ml/neural/advanced_reed_solomon.hpp).

A value of the trivially copyable type `T` is its list of `sizeof(T)` bytes; bytes are natural numbers below
256.  The error-injection helpers (`apply_bit_errors`, `apply_burst_errors`) and `overhead_percent` are not
modelled.
-/
namespace Verif.RS
open Verif.GF

/-- Template parameters: `sizeof(T)`, `SymbolSize`, `ECCSymbols` (advanced_reed_solomon.hpp:40-44). -/
structure Cfg where
  dataSize : Nat
  symbolSize : Nat
  ecc : Nat

/-- `GF` (advanced_reed_solomon.hpp:48-52). -/
def Cfg.field (c : Cfg) : Params := if c.symbolSize = 8 then gf256 else if c.symbolSize = 4 then gf16 else gf1024

/-- `symbol_bytes` (advanced_reed_solomon.hpp:57). -/
def Cfg.symbolBytes (c : Cfg) : Nat := if c.symbolSize ≤ 8 then 1 else 2

/-- `data_symbols` (advanced_reed_solomon.hpp:58). -/
def Cfg.dataSymbols (c : Cfg) : Nat :=
  c.dataSize / c.symbolBytes + (if c.dataSize % c.symbolBytes ≠ 0 then 1 else 0)

/-- `total_symbols` (advanced_reed_solomon.hpp:59). -/
def Cfg.totalSymbols (c : Cfg) : Nat := c.dataSymbols + c.ecc

/-- A constructed codec: field tables and generator polynomial (advanced_reed_solomon.hpp:342-343). -/
structure Codec where
  tab : Tables
  gen : List Nat

/-- Constructor (advanced_reed_solomon.hpp:65-68). -/
def Cfg.construct (c : Cfg) : Eff Codec :=
  Eff.bind c.field.construct fun t => Eff.bind (generatorPoly c.field t c.ecc) fun g => .ok ⟨t, g⟩

/-- The symbol assembled from the bytes `s * symbol_bytes, …` that exist
(advanced_reed_solomon.hpp:361-367, 113-118, 171-175). -/
def Cfg.symbolAt (c : Cfg) (bytes : List Nat) (s : Nat) : Nat :=
  forN c.symbolBytes (fun j e => match bytes[s * c.symbolBytes + j]? with
    | some b => e ||| (b <<< (j * 8))
    | none => e) 0

/-- `convert_to_elements` (advanced_reed_solomon.hpp:352-371). -/
def Cfg.toElements (c : Cfg) (data : List Nat) : List Nat := (List.range c.dataSymbols).map (c.symbolAt data)

/-- `convert_from_elements` (advanced_reed_solomon.hpp:379-390). -/
def Cfg.fromElements (c : Cfg) (es : List Nat) : List Nat :=
  es.flatMap fun e => (List.range c.symbolBytes).map fun j => (e >>> (j * 8)) &&& 0xFF

/-- Inner loop of `compute_ecc_symbols`, iteration `j = k + 1` (advanced_reed_solomon.hpp:411-417). -/
def Cfg.eccInner (c : Cfg) (k : Codec) (feedback : Nat) (i : Nat) (r : List Nat) : Eff (List Nat) :=
  let j := i + 1
  if j < k.gen.length then
    Eff.bind (rd r j) fun old => Eff.bind (rd k.gen j) fun g =>
    Eff.bind (multiply c.field k.tab feedback g) fun p => wr r (j - 1) (add old p)
  else Eff.bind (rd r j) fun old => wr r (j - 1) old

/-- One message symbol of `compute_ecc_symbols` (advanced_reed_solomon.hpp:406-431). -/
def Cfg.eccStep (c : Cfg) (k : Codec) (message : List Nat) (i : Nat) (r : List Nat) : Eff (List Nat) :=
  Eff.bind (rd message i) fun m => Eff.bind (rd r 0) fun r0 =>
  let feedback := add m r0
  if feedback ≠ 0 then
    Eff.bind (forE (c.ecc - 1) (c.eccInner k feedback) r) fun r =>
    if k.gen.length > c.ecc then wr r (c.ecc - 1) 0
    else Eff.bind (rd k.gen c.ecc) fun g => Eff.bind (multiply c.field k.tab feedback g) fun p => wr r (c.ecc - 1) p
  else
    Eff.bind (forE (c.ecc - 1) (fun j r => Eff.bind (rd r (j + 1)) fun v => wr r j v) r) fun r =>
    wr r (c.ecc - 1) 0

/-- `compute_ecc_symbols` (advanced_reed_solomon.hpp:398-435). -/
def Cfg.computeEcc (c : Cfg) (k : Codec) (message : List Nat) : Eff (List Nat) :=
  forE c.dataSymbols (c.eccStep k message) (List.replicate c.ecc 0)

/-- `encode` (advanced_reed_solomon.hpp:76-94).  `message.resize(total_symbols, 0)` appends `ecc` zeros; the ECC
symbols then overwrite them. -/
def Cfg.encode (c : Cfg) (k : Codec) (data : List Nat) : Eff (List Nat) :=
  let message := c.toElements data ++ List.replicate c.ecc 0
  Eff.bind (c.computeEcc k message) fun ecc =>
  .ok (c.fromElements (message.take c.dataSymbols ++ ecc))

/-- `convert_elements_to_data` (advanced_reed_solomon.hpp:445-464) for `data_symbols` elements: byte `i` of the
value is byte `i % symbol_bytes` of element `i / symbol_bytes`. -/
def Cfg.toData (c : Cfg) (es : List Nat) : List Nat :=
  (List.range c.dataSize).map fun i => ((es.getD (i / c.symbolBytes) 0) >>> (i % c.symbolBytes * 8)) &&& 0xFF

/-- `decode` (advanced_reed_solomon.hpp:102-133); `none` is `std::nullopt`. -/
def Cfg.decode (c : Cfg) (k : Codec) (enc : List Nat) : Eff (Option (List Nat)) :=
  if enc.length < c.totalSymbols * c.symbolBytes then .ok none
  else
    let codeword := (List.range c.totalSymbols).map (c.symbolAt enc)
    Eff.bind (correctErrors c.field k.tab codeword c.ecc) fun r =>
    match r with
    | none => .ok none
    | some w => .ok (some (c.toData (w.take c.dataSymbols)))

/-- `is_correctable` (advanced_reed_solomon.hpp:159-195). -/
def Cfg.isCorrectable (c : Cfg) (k : Codec) (enc : List Nat) : Eff Bool :=
  if enc.length < c.totalSymbols * c.symbolBytes then .ok false
  else
    let codeword := (List.range c.totalSymbols).map (c.symbolAt enc)
    Eff.bind (calcSyndromes c.field k.tab codeword c.ecc) fun synd =>
    if (synd.drop 1).all (· == 0) then .ok true
    else
      Eff.bind (findErrorLocator c.field k.tab synd c.ecc) fun (loc, _) =>
      Eff.bind (findErrors c.field k.tab loc codeword.length) fun pos =>
      .ok (!pos.isEmpty && decide (pos.length ≤ c.ecc / 2))

/-- `result[i] |= (1 << b)` on a byte. -/
def setBit (l : List Nat) (i b : Nat) : List Nat := l.modify i (· ||| (1 <<< b))

/-- `interleave` (advanced_reed_solomon.hpp:203-229).  All accesses are inside the vectors because
`src_idx < data.size()` and `dst_idx / 8 ≤ dst_idx < result.size()`. -/
def interleave (data : List Nat) : List Nat :=
  let bc := (data.length + 7) / 8
  forN 8 (fun bit r => forN bc (fun block r =>
    let dst := bit * bc + block
    if block < data.length ∧ dst < r.length then
      if ((data.getD block 0 >>> bit) &&& 1) ≠ 0 then setBit r (dst / 8) (dst % 8) else r
    else r) r) (List.replicate data.length 0)

/-- `deinterleave` (advanced_reed_solomon.hpp:237-263). -/
def deinterleave (data : List Nat) : List Nat :=
  let bc := (data.length + 7) / 8
  forN 8 (fun bit r => forN bc (fun block r =>
    let src := bit * bc + block
    if src < data.length ∧ block < r.length then
      if ((data.getD (src / 8) 0 >>> (src % 8)) &&& 1) ≠ 0 then setBit r block bit else r
    else r) r) (List.replicate data.length 0)

end Verif.RS
