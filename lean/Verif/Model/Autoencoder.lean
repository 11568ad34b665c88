import Mathlib.Analysis.SpecialFunctions.Log.Basic
import Mathlib.Analysis.SpecialFunctions.Exp
import Mathlib.Algebra.Order.Floor.Defs
import Mathlib.Algebra.Order.Archimedean.Real.Basic
import Mathlib.Data.List.GetD
import Mathlib.Data.List.Perm.Basic
/-!
Model of `research::VariationalAutoencoder<float>` (/repo/include/rad_ml/research/variational_autoencoder.hpp, /repo/src/rad_ml/research/variational_autoencoder.cpp).

Floats are real numbers, `none` standing for "not a number" where the code divides by a count of 0.  The three networks are a parameter (`Machine`): the part of `ProtectedNeuralNetwork` used here.
`Lib` is the behaviour of the standard library's random functions.  The optimizer's moments are left out (nothing reads them: variational_autoencoder.cpp:756-780, 930-1000), as is logging.
`saveCheckpoint`, `loadCheckpoint` and `trainBatched` are declared but defined nowhere.
-/
namespace Verif.Autoencoder

/-- Result of a call: a value, an exception, undefined behaviour, or no return at all. -/
inductive R (α : Type) where
  | ok (a : α)
  | throw
  | ub
  | diverge

/-- Sequencing. -/
def R.bind {α β : Type} : R α → (α → R β) → R β
  | .ok a, f => f a
  | .throw, _ => .throw
  | .ub, _ => .ub
  | .diverge, _ => .diverge

/-- Activation functions set by the class (variational_autoencoder.cpp:101-108, 128-137, 160-171). -/
inductive Act where
  | leaky | linear | sigmoid | tanh
  deriving DecidableEq

/-- `ProtectedNeuralNetwork` as used here: construction from layer sizes and activations with drawn weights, `forward` (`none`: exception), `applyRadiationEffects`, statistics. -/
structure Machine where
  σ : Type
  make : List ℕ → List Act → ℕ → σ
  fwd : σ → List ℝ → ℝ → Option (List ℝ) × σ
  strike : σ → ℝ → ℕ → σ
  stats : σ → ℕ × ℕ
  reset : σ → σ

/-- The remaining output of `std::mt19937`. -/
abbrev Rng := ℕ → ℕ
/-- The engine after one draw. -/
def Rng.next (g : Rng) : Rng := fun i => g (i + 1)

/-- The standard library: `gauss s i` is the `i`-th number of `normal_distribution(0,1)` from `mt19937(s)`, `fresh s i` the same with a new distribution object for every number; `shuffle` the order given by `std::shuffle` to `0..n-1`. -/
structure Lib where
  gauss : ℕ → ℕ → ℝ
  fresh : ℕ → ℕ → ℝ
  shuffle : Rng → ℕ → List ℕ × Rng
  perm : ∀ g n, (shuffle g n).1.Perm (List.range n)

/-- `SamplingTechnique` (variational_autoencoder.hpp:37-42). -/
inductive Sampling where
  | standard | reparameterized | importance | adversarial
  deriving DecidableEq

/-- `VAEConfig` (variational_autoencoder.hpp:80-118), the members that are used. -/
structure Cfg where
  beta : ℝ
  useInterp : Bool
  interpWeight : ℝ
  lr : ℝ
  batch : ℤ
  epochs : ℤ
  valSplit : ℝ
  patience : ℤ
  minDelta : ℝ
  sampling : Sampling
  decay : Bool
  decayFactor : ℝ
  decayEvery : ℤ

/-- `std::numeric_limits<float>::max()`. -/
noncomputable def fltMax : ℝ := (2 - 1 / 2 ^ 23) * 2 ^ 127

/-- `TrainingMetrics` (variational_autoencoder.hpp:67-75). -/
structure Metrics where
  train : List (Option ℝ)
  val : List (Option ℝ)
  kl : List (Option ℝ)
  recon : List (Option ℝ)
  best : ℝ
  bestEpoch : ℕ
  without : ℕ

/-- `TrainingMetrics{}` (variational_autoencoder.hpp:67-75). -/
noncomputable def Metrics.new : Metrics := ⟨[], [], [], [], fltMax, 0, 0⟩

/-- The members (variational_autoencoder.hpp:364-398); `lr` is `optimizer_state_.current_lr`, `none` while uninitialised. -/
structure Vae (M : Machine) where
  enc : M.σ
  dec : M.σ
  int : M.σ
  input : ℕ
  latent : ℕ
  hidden : List ℕ
  cfg : Cfg
  metrics : Metrics
  detected : ℕ
  corrected : ℕ
  uncorrectable : ℕ
  rng : Rng
  lr : Option ℝ

variable {M : Machine}

/-! ### Construction -/

/-- Layers of `initializeEncoder` (variational_autoencoder.cpp:87-97). -/
def encLayers (input latent : ℕ) (hidden : List ℕ) : List ℕ := [input] ++ hidden ++ [2 * latent]
/-- Layers of `initializeDecoder` (variational_autoencoder.cpp:115-125). -/
def decLayers (input latent : ℕ) (hidden : List ℕ) : List ℕ := [latent] ++ hidden.reverse ++ [input]
/-- Layers of `initializeInterpolator` (variational_autoencoder.cpp:144-157). -/
def intLayers (latent : ℕ) (hidden : List ℕ) : List ℕ := [2 * latent] ++ [if hidden = [] then latent else hidden.getD (hidden.length / 2) 0] ++ [latent]

/-- `initializeEncoder` (variational_autoencoder.cpp:85-109); `w` stands for the initial weights drawn. -/
def mkEnc (M : Machine) (input latent : ℕ) (hidden : List ℕ) (w : ℕ) : M.σ := M.make (encLayers input latent hidden) (List.replicate hidden.length .leaky ++ [.linear]) w
/-- `initializeDecoder` (variational_autoencoder.cpp:113-138). -/
def mkDec (M : Machine) (input latent : ℕ) (hidden : List ℕ) (w : ℕ) : M.σ := M.make (decLayers input latent hidden) (List.replicate hidden.length .leaky ++ [.sigmoid]) w
/-- `initializeInterpolator` (variational_autoencoder.cpp:142-172). -/
def mkInt (M : Machine) (latent : ℕ) (hidden : List ℕ) (w : ℕ) : M.σ := M.make (intLayers latent hidden) [.tanh, .linear] w

/-- Constructor (variational_autoencoder.cpp:15-33). -/
noncomputable def Vae.new (M : Machine) (input latent : ℕ) (hidden : List ℕ) (cfg : Cfg) (g : Rng) (w : ℕ × ℕ × ℕ) : Vae M :=
  ⟨mkEnc M input latent hidden w.1, mkDec M input latent hidden w.2.1, mkInt M latent hidden w.2.2, input, latent, hidden, cfg, .new, 0, 0, 0, g, none⟩

/-- Copy constructor (variational_autoencoder.cpp:36-55): metrics and optimizer are not copied. -/
noncomputable def Vae.copy (v : Vae M) : Vae M := { v with metrics := .new, lr := none }

/-- Assignment (variational_autoencoder.cpp:58-81) to another object: metrics and optimizer of the target stay. -/
def Vae.assign (v o : Vae M) : Vae M := { o with metrics := v.metrics, lr := v.lr }

/-! ### Data -/

/-- `applyLogarithmics` for one number (variational_autoencoder.cpp:432-436). -/
noncomputable def slog (x : ℝ) : ℝ := if 0 ≤ x then Real.log (1 + |x|) else -Real.log (1 + |x|)
/-- `applyInverseLogarithmics` for one number (variational_autoencoder.cpp:448-452). -/
noncomputable def sexp (x : ℝ) : ℝ := if 0 ≤ x then Real.exp |x| - 1 else -(Real.exp |x| - 1)

/-- `std::accumulate / size` (variational_autoencoder.cpp:463). -/
noncomputable def avg (x : List ℝ) : ℝ := x.sum / x.length
/-- Square of the difference from the mean (variational_autoencoder.cpp:466-468). -/
noncomputable def sq (m y : ℝ) : ℝ := (y - m) * (y - m)
/-- The variance (variational_autoencoder.cpp:465-469). -/
noncomputable def variance (x : List ℝ) : ℝ := (x.map (sq (avg x))).sum / x.length
/-- `applyStandardization` (variational_autoencoder.cpp:458-481). -/
noncomputable def standardize (x : List ℝ) : List ℝ := if x = [] then x else x.map fun y => (y - avg x) / Real.sqrt (variance x + 1 / 10 ^ 8)

/-- Preprocessing of `encode` (variational_autoencoder.cpp:179-181). -/
noncomputable def pre (x : List ℝ) : List ℝ := standardize (x.map slog)

/-- The clamp of `log_var` (variational_autoencoder.cpp:196-198). -/
noncomputable def clamp (x : ℝ) : ℝ := max (-10) (min 10 x)

/-- `encode` (variational_autoencoder.cpp:175-201). -/
noncomputable def Vae.encode (v : Vae M) (x : List ℝ) (rad : ℝ) : R ((List ℝ × List ℝ) × Vae M) := match M.fwd v.enc (pre x) rad with
  | (none, _) => .throw
  | (some o, s) => if o.length < 2 * v.latent then .ub else .ok ((o.take v.latent, ((o.drop v.latent).take v.latent).map clamp), { v with enc := s })

/-- The numbers drawn by `sample` (variational_autoencoder.cpp:212-231). -/
def Lib.eps (L : Lib) (k : Sampling) (s i : ℕ) : ℝ := if k = .standard then L.fresh s i else L.gauss s i

/-- `sample` with the seed of the local engine (variational_autoencoder.cpp:208-233). -/
noncomputable def draws (L : Lib) (k : Sampling) (n : ℕ) (mean lv : List ℝ) (s : ℕ) : List ℝ :=
  (List.range n).map fun i => mean.getD i 0 + Real.exp (1 / 2 * lv.getD i 0) * L.eps k s i

/-- `sample` (variational_autoencoder.cpp:204-234). -/
noncomputable def Vae.sample (L : Lib) (v : Vae M) (mean lv : List ℝ) (seed : ℕ) : R (List ℝ × Vae M) :=
  if mean.length < v.latent ∨ lv.length < v.latent then .ub
  else if seed = 0 then .ok (draws L v.cfg.sampling v.latent mean lv (v.rng 0 % 2 ^ 32), { v with rng := v.rng.next })
  else .ok (draws L v.cfg.sampling v.latent mean lv (seed % 2 ^ 32), v)

/-- `decode` (variational_autoencoder.cpp:237-248, 484-490). -/
noncomputable def Vae.decode (v : Vae M) (z : List ℝ) (rad : ℝ) : R (List ℝ × Vae M) := match M.fwd v.dec z rad with
  | (none, _) => .throw
  | (some o, s) => .ok (o.map sexp, { v with dec := s })

/-! ### Latent protection -/

/-- `uniform_real_distribution(-0.01, 0.01)` (variational_autoencoder.cpp:611). -/
noncomputable def noise (r : ℕ) : ℝ := -1 / 100 + 1 / 50 * ((r % 2 ^ 32 : ℕ) / 2 ^ 32)

/-- The vote (variational_autoencoder.cpp:619-627). -/
noncomputable def vote (a b c : ℝ) : ℝ := if |a - b| < |a - c| then (a + b) / 2 else if |a - c| < |b - c| then (a + c) / 2 else (b + c) / 2

/-- One number (variational_autoencoder.cpp:602-627) and the engine afterwards. -/
noncomputable def protectOne (rad x : ℝ) (g : Rng) : ℝ × Rng :=
  if 1 / 2 < rad then (vote (x + noise (g 0)) (x + noise (g 1)) (x + noise (g 2)), g.next.next.next) else (vote x x x, g)

/-- The loop of `protectLatentVariables` (variational_autoencoder.cpp:601-634): new values, number of corrections counted, engine. -/
noncomputable def protectAll (rad : ℝ) : List ℝ → Rng → List ℝ × ℕ × Rng
  | [], g => ([], 0, g)
  | x :: xs, g =>
    let p := protectOne rad x g
    let q := protectAll rad xs p.2
    (p.1 :: q.1, (if 1 / 10 ^ 6 < |p.1 - x| then 1 else 0) + q.2.1, q.2.2)

/-- `protectLatentVariables` (variational_autoencoder.cpp:596-636). -/
noncomputable def Vae.protect (v : Vae M) (z : List ℝ) (rad : ℝ) : List ℝ × Vae M :=
  if 1 / 10 < rad then
    let q := protectAll rad z v.rng
    (q.1, { v with detected := v.detected + q.2.1, corrected := v.corrected + q.2.1, rng := q.2.2 })
  else (z, v)

/-- `forward` (variational_autoencoder.cpp:251-265). -/
noncomputable def Vae.forward (L : Lib) (v : Vae M) (x : List ℝ) (rad : ℝ) : R (List ℝ × Vae M) :=
  (v.encode x rad).bind fun e => (e.2.sample L e.1.1 e.1.2 0).bind fun s => (s.2.protect s.1 rad).2.decode (s.2.protect s.1 rad).1 rad

/-! ### Interpolation and generation -/

/-- The blend of two vectors over `n` indices (variational_autoencoder.cpp:282-284, 291-293). -/
noncomputable def blend (n : ℕ) (a b : List ℝ) (t : ℝ) : List ℝ := (List.range n).map fun i => (1 - t) * a.getD i 0 + t * b.getD i 0

/-- `interpolate` (variational_autoencoder.cpp:268-297). -/
noncomputable def Vae.interpolate (v : Vae M) (a b : List ℝ) (t rad : ℝ) : R (List ℝ × Vae M) :=
  if v.cfg.useInterp then
    match M.fwd v.int (a ++ b) rad with
    | (none, _) => .throw
    | (some o, s) => if a.length < o.length then .ub else { v with int := s }.decode (blend o.length a o t) rad
  else if a.length < v.latent ∨ b.length < v.latent then .ub
  else v.decode (blend v.latent a b t) rad

/-- The loop of `generate` (variational_autoencoder.cpp:309-320), samples from number `i` on. -/
noncomputable def genLoop (L : Lib) (s : ℕ) (rad : ℝ) : ℕ → ℕ → Vae M → R (List (List ℝ) × Vae M)
  | 0, _, v => .ok ([], v)
  | n + 1, i, v => (v.decode ((List.range v.latent).map fun j => L.gauss s (i * v.latent + j)) rad).bind fun d => (genLoop L s rad n (i + 1) d.2).bind fun r => .ok (d.1 :: r.1, r.2)

/-- `generate` (variational_autoencoder.cpp:300-323). -/
noncomputable def Vae.generate (L : Lib) (v : Vae M) (n : ℕ) (rad : ℝ) (seed : ℕ) : R (List (List ℝ) × Vae M) :=
  if seed = 0 then genLoop L (v.rng 0 % 2 ^ 32) rad n 0 { v with rng := v.rng.next } else genLoop L (seed % 2 ^ 32) rad n 0 v

/-! ### Losses -/

/-- One term of the divergence (variational_autoencoder.cpp:500). -/
noncomputable def klTerm (m l : ℝ) : ℝ := 1 / 2 * (m * m + Real.exp l - l - 1)
/-- `computeKLDivergence` (variational_autoencoder.cpp:493-504). -/
noncomputable def kl (n : ℕ) (mean lv : List ℝ) : ℝ := ((List.range n).map fun i => klTerm (mean.getD i 0) (lv.getD i 0)).sum

/-- Sum of the squares (variational_autoencoder.cpp:510-516, 527-533) over `n` indices. -/
noncomputable def sumSq (n : ℕ) (x y : List ℝ) : ℝ := ((List.range n).map fun i => (x.getD i 0 - y.getD i 0) * (x.getD i 0 - y.getD i 0)).sum

/-- Division of a sum by a count; not a number for the count 0 and the sum 0. -/
noncomputable def per (x : ℝ) (n : ℕ) : Option ℝ := if n = 0 then none else some (x / n)

/-- `computeReconstructionLoss` (variational_autoencoder.cpp:507-519). -/
noncomputable def mse (x y : List ℝ) : R (Option ℝ) := if y.length < x.length then .ub else .ok (per (sumSq x.length x y) x.length)

/-- `computeEncoderGradients` (variational_autoencoder.cpp:901-914). -/
noncomputable def encGrad (n : ℕ) (mean lv : List ℝ) : List ℝ := ((List.range n).map fun i => mean.getD i 0) ++ (List.range n).map fun i => 1 / 2 * (Real.exp (lv.getD i 0) - 1)

/-- `computeDecoderGradients` (variational_autoencoder.cpp:917-927). -/
noncomputable def decGrad (n : ℕ) (x y : List ℝ) : List ℝ := (List.range n).map fun i => 2 * (y.getD i 0 - x.getD i 0) / n

/-- The midpoint `computeInterpolationLoss` expects (variational_autoencoder.cpp:530). -/
noncomputable def middle (n : ℕ) (a b : List ℝ) : List ℝ := (List.range n).map fun i => 1 / 2 * (a.getD i 0 + b.getD i 0)

/-- `computeInterpolationLoss` (variational_autoencoder.cpp:522-536). -/
noncomputable def interpLoss (n : ℕ) (a b o : List ℝ) : R (Option ℝ) := if o.length < n ∨ a.length < n ∨ b.length < n then .ub else .ok (per (sumSq n o (middle n a b)) n)

/-- `recon + beta * kl` (variational_autoencoder.cpp:410, 829). -/
noncomputable def elbo (beta : ℝ) (r : Option ℝ) (k : ℝ) : Option ℝ := r.map fun x => x + beta * k

/-- `calculateLoss` (variational_autoencoder.cpp:398-424). -/
noncomputable def Vae.loss (L : Lib) (v : Vae M) (x y mean lv : List ℝ) : R (Option ℝ × Vae M) :=
  (mse x y).bind fun r =>
    if mean.length < v.latent ∨ lv.length < v.latent then .ub
    else if v.cfg.useInterp then
      ({ v with rng := v.rng.next }.sample L mean lv (v.rng 0)).bind fun a => ({ a.2 with rng := a.2.rng.next }.sample L mean lv (a.2.rng 0 + 1)).bind fun b =>
        (b.2.interpolate a.1 b.1 (1 / 2) 0).bind fun o => (interpLoss v.latent a.1 b.1 o.1).bind fun l =>
          .ok ((elbo v.cfg.beta r (kl v.latent mean lv)).bind fun t => l.map fun y => t + v.cfg.interpWeight * y, o.2)
    else .ok (elbo v.cfg.beta r (kl v.latent mean lv), v)

/-! ### Splitting and batches -/

/-- `static_cast<size_t>` of a real. -/
noncomputable def toSize (x : ℝ) : R ℕ := if x ≤ -1 ∨ 2 ^ 64 ≤ x then .ub else .ok ⌊x⌋₊

/-- `splitTrainValidation` (variational_autoencoder.cpp:1112-1134): reserving a wrapped number of elements throws. -/
noncomputable def split {α : Type} (L : Lib) (valSplit : ℝ) (g : Rng) (data : List α) : R ((List α × List α) × Rng) :=
  (toSize (data.length * (1 - valSplit))).bind fun k =>
    if data.length < k then .throw
    else .ok ((((L.shuffle g data.length).1.take k).filterMap (data[·]?), ((L.shuffle g data.length).1.drop k).filterMap (data[·]?)), (L.shuffle g data.length).2)

/-- A batch size converted to `size_t`. -/
def step (b : ℤ) : ℕ := (b % 2 ^ 64).toNat

/-- Next start of a batch, in 64 bits. -/
def advance (i s : ℕ) : ℕ := (i + s) % 2 ^ 64

/-- Elements from `i` up to, not including, `e`. -/
def slice {α : Type} (data : List α) (i e : ℕ) : List α := (data.take e).drop i

/-- The loop of `createBatches` (variational_autoencoder.cpp:1142-1152) and of `train` (349-371), at most `fuel` batches: `none` if it is not over then. -/
def batchLoop {α : Type} (data : List α) (s : ℕ) : ℕ → ℕ → Option (List (List α))
  | 0, i => if i < data.length then none else some []
  | fuel + 1, i => if i < data.length then (batchLoop data s fuel (advance i s)).map fun r => slice data i (min (advance i s) data.length) :: r else some []

/-- `createBatches` (variational_autoencoder.cpp:1137-1155): a batch size other than 0 needs at most as many batches as there are data; with 0 the loop does not end. -/
def batches {α : Type} (data : List α) (b : ℤ) : R (List (List α)) := match batchLoop data (step b) data.length 0 with
  | some r => .ok r
  | none => .diverge

/-! ### Training -/

/-- Addition of numbers that may not be numbers. -/
noncomputable def plus (a b : Option ℝ) : Option ℝ := a.bind fun x => b.map fun y => x + y
/-- Division by a count. -/
noncomputable def over (a : Option ℝ) (n : ℕ) : Option ℝ := a.bind fun x => per x n

/-- Losses of a sample: total, divergence, reconstruction. -/
structure Losses where
  total : Option ℝ
  kl : Option ℝ
  recon : Option ℝ

/-- Losses 0. -/
noncomputable def Losses.zero : Losses := ⟨some 0, some 0, some 0⟩
/-- Sum of losses. -/
noncomputable def Losses.add (a b : Losses) : Losses := ⟨plus a.total b.total, plus a.kl b.kl, plus a.recon b.recon⟩
/-- Losses divided by a count. -/
noncomputable def Losses.over (a : Losses) (n : ℕ) : Losses := ⟨Verif.Autoencoder.over a.total n, Verif.Autoencoder.over a.kl n, Verif.Autoencoder.over a.recon n⟩

/-- One sample of training, validation or evaluation (variational_autoencoder.cpp:820-839, 854-862, 1012-1024). -/
noncomputable def Vae.one (L : Lib) (v : Vae M) (x : List ℝ) : R (Losses × Vae M) :=
  (v.encode x 0).bind fun e => (e.2.sample L e.1.1 e.1.2 0).bind fun z => (z.2.decode z.1 0).bind fun y => (mse x y.1).bind fun r =>
    .ok (⟨elbo v.cfg.beta r (kl v.latent e.1.1 e.1.2), some (kl v.latent e.1.1 e.1.2), r⟩, y.2)

/-- The losses of a list of samples, added to `acc` (variational_autoencoder.cpp:820-840, 854-862). -/
noncomputable def Vae.many (L : Lib) : List (List ℝ) → Losses → Vae M → R (Losses × Vae M)
  | [], acc, v => .ok (acc, v)
  | x :: xs, acc, v => (v.one L x).bind fun r => Vae.many L xs (acc.add r.1) r.2

/-- The batches of an epoch (variational_autoencoder.cpp:815-845). -/
noncomputable def Vae.epochBatches (L : Lib) : List (List (List ℝ)) → Losses → Vae M → R (Losses × Vae M)
  | [], acc, v => .ok (acc, v)
  | b :: bs, acc, v => (Vae.many L b .zero v).bind fun r => Vae.epochBatches L bs (acc.add (r.1.over b.length)) r.2

/-- The decision at the end of an epoch (variational_autoencoder.cpp:865-880). -/
noncomputable def Metrics.note (m : Metrics) (delta : ℝ) (epoch : ℕ) (t : Losses) (val : Option ℝ) : Metrics :=
  let m' := { m with train := m.train ++ [t.total], val := m.val ++ [val], kl := m.kl ++ [t.kl], recon := m.recon ++ [t.recon] }
  match val with
  | some x => if x < m.best - delta then { m' with best := x, bestEpoch := epoch, without := 0 } else { m' with without := m.without + 1 }
  | none => { m' with without := m.without + 1 }

/-- One epoch (variational_autoencoder.cpp:806-880). -/
noncomputable def Vae.epoch (L : Lib) (tr val : List (List ℝ)) (e : ℕ) (v : Vae M) : R (Vae M) :=
  (batches tr v.cfg.batch).bind fun bs => (Vae.epochBatches L bs .zero v).bind fun t => (Vae.many L val .zero t.2).bind fun w =>
    .ok { w.2 with metrics := t.2.metrics.note v.cfg.minDelta e (t.1.over bs.length) (over w.1.total val.length) }

/-- The loop over epochs (variational_autoencoder.cpp:806-895), `n` more from epoch `e` on. -/
noncomputable def Vae.epochs (L : Lib) (tr val : List (List ℝ)) : ℕ → ℕ → Vae M → R (Vae M)
  | 0, _, v => .ok v
  | n + 1, e, v => (v.epoch L tr val e).bind fun w => if v.cfg.patience ≤ (w.metrics.without : ℤ) then .ok w else Vae.epochs L tr val n (e + 1) w

/-- `trainProduction` (variational_autoencoder.cpp:756-761, 783-898): the object afterwards, whose metrics are returned. -/
noncomputable def Vae.trainProduction (L : Lib) (v : Vae M) (tr val : List (List ℝ)) : R (Vae M) :=
  let v0 := { v with lr := some v.cfg.lr, metrics := .new }
  if val = [] then (split L v.cfg.valSplit v.rng tr).bind fun s => Vae.epochs L s.1.1 s.1.2 v.cfg.epochs.toNat 0 { v0 with rng := s.2 }
  else Vae.epochs L tr val v.cfg.epochs.toNat 0 v0

/-- `evaluateComprehensive` (variational_autoencoder.cpp:1003-1034): the three means. -/
noncomputable def Vae.evaluate (L : Lib) (v : Vae M) (data : List (List ℝ)) : R (Losses × Vae M) :=
  (Vae.many L data .zero v).bind fun r => .ok (r.1.over data.length, r.2)

/-- One sample of `train` (variational_autoencoder.cpp:354-368); `updateWeights` (539-593) changes nothing. -/
noncomputable def Vae.oneLegacy (L : Lib) (v : Vae M) (x : List ℝ) : R (Option ℝ × Vae M) :=
  (v.encode x 0).bind fun e => (e.2.sample L e.1.1 e.1.2 0).bind fun z => (z.2.decode z.1 0).bind fun y => y.2.loss L x y.1 e.1.1 e.1.2

/-- The samples of a batch (variational_autoencoder.cpp:354-368). -/
noncomputable def Vae.manyLegacy (L : Lib) : List (List ℝ) → Option ℝ → Vae M → R (Option ℝ × Vae M)
  | [], acc, v => .ok (acc, v)
  | x :: xs, acc, v => (v.oneLegacy L x).bind fun r => Vae.manyLegacy L xs (plus acc r.1) r.2

/-- The batches (variational_autoencoder.cpp:349-371). -/
noncomputable def Vae.batchesLegacy (L : Lib) : List (List (List ℝ)) → Option ℝ → Vae M → R (Option ℝ × Vae M)
  | [], acc, v => .ok (acc, v)
  | b :: bs, acc, v => (Vae.manyLegacy L b (some 0) v).bind fun r => Vae.batchesLegacy L bs (plus acc (over r.1 b.length)) r.2

/-- The loop of `train` (variational_autoencoder.cpp:340-379), `n` epochs; the integer division by a batch size 0 is undefined. -/
noncomputable def Vae.trainLoop (L : Lib) (data : List (List ℝ)) (b : ℤ) : ℕ → Option ℝ → Vae M → R (Option ℝ × Vae M)
  | 0, last, v => .ok (last, v)
  | n + 1, _, v =>
    (batches ((L.shuffle v.rng data.length).1.filterMap (data[·]?)) b).bind fun bs =>
      (Vae.batchesLegacy L bs (some 0) { v with rng := (L.shuffle v.rng data.length).2 }).bind fun r =>
        if step b = 0 then .ub else Vae.trainLoop L data b n (over r.1 (data.length / step b + 1)) r.2

/-- `train` (variational_autoencoder.cpp:326-382); the learning rate is used for nothing. -/
noncomputable def Vae.train (L : Lib) (v : Vae M) (data : List (List ℝ)) (epochs batch : ℤ) : R (Option ℝ × Vae M) :=
  Vae.trainLoop L data (if batch = -1 then v.cfg.batch else batch) (if epochs = -1 then v.cfg.epochs else epochs).toNat (some 0) v

/-! ### Radiation and statistics -/

/-- `applyRadiationEffects` (variational_autoencoder.cpp:639-647). -/
def Vae.strike (v : Vae M) (rad : ℝ) (seed : ℕ) : Vae M :=
  { v with enc := M.strike v.enc rad seed, dec := M.strike v.dec rad ((seed + 1) % 2 ^ 64), int := M.strike v.int rad ((seed + 2) % 2 ^ 64) }

/-- `getErrorStats` (variational_autoencoder.cpp:650-669). -/
def Vae.stats (v : Vae M) : ℕ × ℕ :=
  (v.detected + ((M.stats v.enc).1 + (M.stats v.dec).1) + (M.stats v.int).1, v.corrected + ((M.stats v.enc).2 + (M.stats v.dec).2) + (M.stats v.int).2)

/-- `resetErrorStats` (variational_autoencoder.cpp:672-683). -/
def Vae.resetStats (v : Vae M) : Vae M := { v with detected := 0, corrected := 0, uncorrectable := 0, enc := M.reset v.enc, dec := M.reset v.dec, int := M.reset v.int }

/-- `setConfig` (variational_autoencoder.hpp:311-315). -/
noncomputable def Vae.setConfig (v : Vae M) (c : Cfg) : Vae M := { v with cfg := c, lr := some c.lr }

/-- The loop of `evaluate` (variational_autoencoder.cpp:389-392). -/
noncomputable def Vae.evalLoop (L : Lib) : List (List ℝ) → Option ℝ → Vae M → R (Option ℝ × Vae M)
  | [], acc, v => .ok (acc, v)
  | x :: xs, acc, v => (v.forward L x 0).bind fun y => (mse x y.1).bind fun r => Vae.evalLoop L xs (plus acc r) y.2

/-- `evaluate` (variational_autoencoder.cpp:385-395). -/
noncomputable def Vae.evaluateLegacy (L : Lib) (v : Vae M) (data : List (List ℝ)) : R (Option ℝ × Vae M) :=
  (Vae.evalLoop L data (some 0) v).bind fun r => .ok (over r.1 data.length, r.2)

/-! ### Files -/

/-- A byte. -/
abbrev Byte := Fin 256

/-- The `k` low bytes of a number, least significant first. -/
def le : ℕ → ℕ → List Byte
  | 0, _ => []
  | k + 1, n => Fin.ofNat 256 n :: le k (n / 256)
/-- The number with the given bytes. -/
def unle : List Byte → ℕ
  | [] => 0
  | b :: bs => b.val + 256 * unle bs
/-- Numbers written as 8 bytes each. -/
def words (l : List ℕ) : List Byte := (l.map (le 8)).flatten
/-- `n` numbers of 8 bytes each. -/
def unwords : ℕ → List Byte → List ℕ
  | 0, _ => []
  | n + 1, b => unle (b.take 8) :: unwords n (b.drop 8)

/-- Dimensions as written by `saveToFile` (variational_autoencoder.cpp:695-702) and `saveModel` (1050-1056). -/
def Vae.dims (v : Vae M) : List Byte := le 8 v.input ++ le 8 v.latent ++ le 8 v.hidden.length ++ words v.hidden

/-- `saveToFile` (variational_autoencoder.cpp:686-716) into a file that can be opened or not; `raw` are the bytes of the `VAEConfig` object, at least one. -/
def Vae.save (v : Vae M) (raw : List Byte) (opens : Bool) : Bool × Option (List Byte) := if opens then (true, some (v.dims ++ raw)) else (false, none)

/-- `hidden_dims_.resize(count)` followed by `file.read` into it (variational_autoencoder.cpp:734-735): bytes missing in the file stay as they were. -/
def readHidden (old : List ℕ) (count : ℕ) (rest : List Byte) : List ℕ :=
  let got := rest.take (8 * count)
  unwords count (got ++ (words ((old ++ List.replicate count 0).take count)).drop got.length)

/-- `loadFromFile` (variational_autoencoder.cpp:719-752): `room` is the largest count the vector can be resized to; `w` the weights drawn for the new networks.  With fewer than 24 bytes the count is indeterminate; overwriting bytes of the configuration, which contains a `std::string`, is undefined. -/
noncomputable def Vae.load (v : Vae M) (room : ℕ) (w : ℕ × ℕ × ℕ) : Option (List Byte) → R (Bool × Vae M)
  | none => .ok (false, v)
  | some f =>
    if f.length < 24 then .ub
    else
      let i := unle (f.take 8)
      let l := unle ((f.drop 8).take 8)
      let n := unle ((f.drop 16).take 8)
      let rest := f.drop 24
      if room < n then .ok (false, { v with input := i, latent := l })
      else if 8 * n < rest.length then .ub
      else
        let h := readHidden v.hidden n rest
        .ok (true, { v with input := i, latent := l, hidden := h, enc := mkEnc M i l h w.1, dec := mkDec M i l h w.2.1, int := mkInt M l h w.2.2 })

/-- The header of `saveModel` (variational_autoencoder.cpp:1046). -/
def header : List Char := "RAD_ML_VAE_V1.0".toList

/-- Bytes of the header. -/
def headerBytes : List Byte := header.map fun c => Fin.ofNat 256 c.toNat

/-- `saveModel` (variational_autoencoder.cpp:1037-1067); `raw` are the bytes of configuration and optimizer. -/
def Vae.saveModel (v : Vae M) (raw : List Byte) (opens : Bool) : Bool × Option (List Byte) := if opens then (true, some (headerBytes ++ v.dims ++ raw)) else (false, none)

/-- The 14 characters `loadModel` reads (variational_autoencoder.cpp:1079-1080): missing ones stay 0. -/
def readHeader (f : List Byte) : List Byte := f.take 14 ++ List.replicate (14 - f.length) 0

/-- `loadModel` (variational_autoencoder.cpp:1070-1109) up to the check of the header; what follows it is `rest`. -/
def Vae.loadModel (v : Vae M) (rest : List Byte → R (Bool × Vae M)) : Option (List Byte) → R (Bool × Vae M)
  | none => .ok (false, v)
  | some f => if readHeader f ≠ headerBytes then .ok (false, v) else rest f

end Verif.Autoencoder
