import Verif.Model.Bytes
import Verif.Model.Ids
/-!
# The random number generators

`common/pkg/fcrcrypto/prng.go`, `prng_pool.go`, `prng_private.go`, `prng_public.go`, the key generation of `secp256k1.go`, the
random identifiers of `nodeid.go` and `cid.go` and `common/pkg/challenge/challenge.go`.

The message digest (`blake2b.Sum256`) is a parameter `H`.  The inner generator (`davidlazar/go-crypto/drbg`) is a parameter too:
a type of states with a reading and a reseeding function, about which nothing is assumed but that it fills the buffer it is given.
-/

namespace FcRetrieval.Prng

/-- `drbg.DRBG` (prng.go:49): the inner generator.  `read d n` fills a buffer of `n` bytes; errors of `Read` (the generator never
reports any) are not modelled. -/
structure Inner (D : Type) where
  read : D → Nat → Bytes × D
  reseed : D → Bytes → D
  fills : ∀ d n, (read d n).1.length = n

/-- `randomImpl` (prng.go:48-53) between two calls; the digest object is reset by every use, so its state does not matter here
(it does in `Threads`). -/
structure Gen (D : Type) where
  drbg : D
  state : Bytes
  counter : Int

/-- `(*big.Int).Bytes` of the counter: the absolute value, big endian (prng.go:82). -/
def counterBytes (c : Int) : Bytes := natBytes c.natAbs

/-- `getPRNGHasherDigestSize` (hash.go:73-75). -/
def digestSize : Nat := 32

/-- `NewPRNG` (prng.go:58-70): `d` is the inner generator made from the personalisation string, `now` the clock in nanoseconds,
`rnd` what the operating system put in the state. -/
def newPRNG {D : Type} (d : D) (now : Int) (rnd : Bytes) : Gen D := { drbg := d, state := rnd, counter := now }

/-- `copy(b[i:j], h)` (prng.go:103, 105): as many bytes as both sides have. -/
def overwrite (b : Bytes) (i j : Nat) (h : Bytes) : Bytes :=
  b.take i ++ h.take (j - i) ++ b.drop (i + (h.take (j - i)).length)

/-- One round of the loop of `ReadBytes` (prng.go:79-96) with `k` bytes of the inner generator: the digest of the incremented
counter, of what the inner generator gives and of the state becomes the new state. -/
def round {D : Type} (H : Bytes → Bytes) (F : Inner D) (k : Nat) (g : Gen D) : Gen D :=
  let c := g.counter + 1
  let x := F.read g.drbg k
  { drbg := x.2, state := H (counterBytes c ++ x.1 ++ g.state), counter := c }

/-- The loop of `ReadBytes` (prng.go:77-107).  The first argument bounds the number of rounds. -/
def readLoop {D : Type} (H : Bytes → Bytes) (F : Inner D) (k : Nat) : Nat → Nat → Bytes → Gen D → Bytes × Gen D
  | 0, _, b, g => (b, g)
  | fuel + 1, ofs, b, g =>
    if ofs < b.length then
      let g' := round H F k g
      let ofs' := ofs + k
      let b' := if ofs' ≤ b.length then overwrite b ofs ofs' g'.state else overwrite b ofs b.length g'.state
      readLoop H F k fuel ofs' b' g'
    else (b, g)

/-- `ReadBytes` (prng.go:73-108), and `Read` of the reader (prng.go:111-114): fills `b`.  A round writes at least one byte, so
`len(b)` rounds suffice. -/
def readBytes {D : Type} (H : Bytes → Bytes) (F : Inner D) (b : Bytes) (g : Gen D) : Bytes × Gen D :=
  readLoop H F g.state.length b.length 0 b g

/-- `Reseed` (prng.go:117-126). -/
def reseed {D : Type} (H : Bytes → Bytes) (F : Inner D) (seed : Bytes) (g : Gen D) : Gen D :=
  { g with drbg := F.reseed g.drbg seed, state := H (seed ++ g.state) }

/-- `nanotime` (prng.go:141-149): the clock as eight bytes, big endian. -/
def nanotime (now : Nat) : Bytes := be64 now

/-- `QuickReseedKick` (prng.go:131-133). -/
def quickReseedKick {D : Type} (H : Bytes → Bytes) (F : Inner D) (now : Nat) (g : Gen D) : Gen D := reseed H F (nanotime now) g

/-! ## The uses -/

/-- `NewRandomNodeID` (nodeid.go:93-98) and `NewRandomContentID` (cid.go:76-81): 32 bytes of the public generator. -/
def newRandomID {D : Type} (H : Bytes → Bytes) (F : Inner D) (g : Gen D) : Bytes × Gen D :=
  readBytes H F (List.replicate 32 0) g

/-- The order of the curve secp256k1. -/
def curveOrder : Nat := 115792089237316195423570985008687907852837564279074904382605163141518161494337

/-- `ecdsa.GenerateKey` on 40 bytes of the reader (library; Go 1.16): the number read, reduced to `1 .. order - 1`.  The one byte
that the library may read and throw away before is part of the history of the generator. -/
def scalar (b : Bytes) : Nat := bytesNum b % (curveOrder - 1) + 1

/-- `copy(privkey[32-len(blob):], blob)` (secp256k1.go:75-79); `none` is the crash for a negative index. -/
def padKey (blob : Bytes) : Option Bytes :=
  if blob.length ≤ 32 then some (List.replicate (32 - blob.length) 0 ++ blob) else none

/-- `secp256k1GenerateKey` (secp256k1.go:69-88) with the private generator. -/
def generateKey {D : Type} (H : Bytes → Bytes) (F : Inner D) (g : Gen D) : Option Bytes × Gen D :=
  let x := readBytes H F (List.replicate 40 0) g
  (padKey (natBytes (scalar x.1)), x.2)

/-- `NewRandomChallenge` (challenge.go:15-23) for 32 bytes of the operating system. -/
def newRandomChallenge (random : Bytes) : List Char := b64Encode random

/-! ## The pool -/

/-- A call that makes a generator or looks one up, or reads, reseeds or kicks (prng_pool.go, prng_private.go, prng_public.go).
`ix` is the place of a generator among those made. -/
inductive Call where
  /-- `GetPrivatePRNG` -/
  | getPrivate (now : Int) (rnd : Bytes)
  /-- `GetPublicPRNG` -/
  | getPublic (now : Int) (rnd : Bytes)
  /-- `NewPrivatePRNG` -/
  | newPrivate (domain : Bytes) (now : Int) (rnd : Bytes)
  /-- `NewPRNG` -/
  | newOther (domain : Bytes) (now : Int) (rnd : Bytes)
  /-- `ReadBytes` on a buffer of `n` bytes -/
  | read (ix : Nat) (n : Nat)
  /-- `PRNGEntropyKick`; each generator sees its own time -/
  | kick (now : Nat → Nat)

/-- The package variables: all generators made, the places in `prngPool`, `privatePRNG` and `publicPRNG`. -/
structure World (D : Type) where
  gens : List (Gen D) := []
  pool : List Nat := []
  priv : Option Nat := none
  pub : Option Nat := none

/-- A new generator at the end of the list; `instant` stands for `drbg.New` of the personalisation string. -/
def make {D : Type} (instant : Bytes → D) (domain : Bytes) (now : Int) (rnd : Bytes) (w : World D) : World D :=
  { w with gens := w.gens ++ [newPRNG (instant domain) now rnd] }

/-- `[]byte("private")` (prng_private.go:41). -/
def privateDomain : Bytes := [112, 114, 105, 118, 97, 116, 101]
/-- `[]byte("public")` (prng_public.go:38). -/
def publicDomain : Bytes := [112, 117, 98, 108, 105, 99]

/-- One round of the loop of `PRNGEntropyKick` (prng_pool.go:27-29). -/
def kickOne {D : Type} (H : Bytes → Bytes) (F : Inner D) (now : Nat → Nat) (gs : List (Gen D)) (ix : Nat) : List (Gen D) :=
  match gs[ix]? with
  | some g => gs.set ix (quickReseedKick H F (now ix) g)
  | none => gs

/-- One call, calls one after the other. -/
def call {D : Type} (H : Bytes → Bytes) (F : Inner D) (instant : Bytes → D) (w : World D) : Call → World D
  | .getPrivate now rnd =>
    -- prng_private.go:39-45
    match w.priv with
    | some _ => w
    | none => { make instant privateDomain now rnd w with pool := w.pool ++ [w.gens.length], priv := some w.gens.length }
  | .getPublic now rnd =>
    -- prng_public.go:36-42
    match w.pub with
    | some _ => w
    | none => { make instant publicDomain now rnd w with pool := w.pool ++ [w.gens.length], pub := some w.gens.length }
  | .newPrivate domain now rnd =>
    -- prng_private.go:50-54
    { make instant domain now rnd w with pool := w.pool ++ [w.gens.length] }
  | .newOther domain now rnd => make instant domain now rnd w
  | .read ix n =>
    match w.gens[ix]? with
    | some g => { w with gens := w.gens.set ix (readBytes H F (List.replicate n 0) g).2 }
    | none => w
  | .kick now =>
    -- prng_pool.go:26-30
    { w with gens := w.pool.foldl (kickOne H F now) w.gens }

/-- A history of calls in a fresh process. -/
def calls {D : Type} (H : Bytes → Bytes) (F : Inner D) (instant : Bytes → D) (cs : List Call) : World D :=
  cs.foldl (call H F instant) {}

/-! ## Concurrent readers of one generator -/

/-- Where a thread is in `ReadBytes`. -/
inductive Pc where
  /-- at the head of the loop (prng.go:78) -/
  | head
  /-- after `prfHasher.Reset` (prng.go:79) -/
  | reset
  /-- after counting and writing the counter (prng.go:81-82) -/
  | counted
  /-- after reading the inner generator and writing what it gave (prng.go:85-89) -/
  | drawn
  /-- after writing the state (prng.go:92) -/
  | mixed
  /-- after `Sum` (prng.go:93): the digest -/
  | summed (h : Bytes)
  /-- after the loop -/
  | done
deriving DecidableEq

/-- A thread: the buffer of its caller, how much of it is filled, where it is. -/
structure Thread where
  buf : Bytes
  ofs : Nat := 0
  pc : Pc := .head
deriving DecidableEq

/-- The generator with what was written to its digest object since the last `Reset`, and the threads.  There is no lock in
`randomImpl`.  `size` is `lengthPerIteration`, the length of the state (prng.go:74). -/
structure Threads (D : Type) where
  gen : Gen D
  hasher : Bytes := []
  size : Nat
  threads : List Thread

/-- The next step of a thread.  Each access to the shared object is one step; within a step nothing is torn. -/
def stepThread {D : Type} (H : Bytes → Bytes) (F : Inner D) (s : Threads D) (t : Thread) : Threads D × Thread :=
  match t.pc with
  | .head => if t.ofs < t.buf.length then ({ s with hasher := [] }, { t with pc := .reset }) else (s, { t with pc := .done })
  | .reset =>
    let c := s.gen.counter + 1
    ({ s with gen := { s.gen with counter := c }, hasher := s.hasher ++ counterBytes c }, { t with pc := .counted })
  | .counted =>
    let x := F.read s.gen.drbg s.size
    ({ s with gen := { s.gen with drbg := x.2 }, hasher := s.hasher ++ x.1 }, { t with pc := .drawn })
  | .drawn => ({ s with hasher := s.hasher ++ s.gen.state }, { t with pc := .mixed })
  | .mixed => (s, { t with pc := .summed (H s.hasher) })
  | .summed h =>
    let ofs' := t.ofs + s.size
    ({ s with gen := { s.gen with state := h } },
     { buf := if ofs' ≤ t.buf.length then overwrite t.buf t.ofs ofs' h else overwrite t.buf t.ofs t.buf.length h,
       ofs := ofs', pc := .head })
  | .done => (s, t)

/-- Thread `i` takes its next step. -/
def step {D : Type} (H : Bytes → Bytes) (F : Inner D) (s : Threads D) (i : Nat) : Threads D :=
  match s.threads[i]? with
  | none => s
  | some t => let r := stepThread H F s t; { r.1 with threads := s.threads.set i r.2 }

/-- A schedule. -/
def run {D : Type} (H : Bytes → Bytes) (F : Inner D) (s : Threads D) (sched : List Nat) : Threads D :=
  sched.foldl (step H F) s

/-- Calls of `ReadBytes` on buffers of the given lengths, all on one generator. -/
def start {D : Type} (g : Gen D) (lens : List Nat) : Threads D :=
  { gen := g, size := g.state.length, threads := lens.map fun n => { buf := List.replicate n 0 } }

/-! ## Concurrent makers of generators -/

/-- `prngPool = append(prngPool, aPRNG)` (prng_private.go:42, 52, prng_public.go:39) in a thread: `started` before, `seen` between
reading the package variable and writing it, `done` after.  There is no lock.  (The two `sync.Once` are different, so they do not
exclude each other either.) -/
inductive MakerPc where
  | started
  | seen (pool : List Nat)
  | done
deriving DecidableEq

/-- The pool and the threads; thread `i` adds generator `i`. -/
structure Makers where
  pool : List Nat := []
  threads : List MakerPc

/-- Thread `i` takes its next step. -/
def makerStep (s : Makers) (i : Nat) : Makers :=
  match s.threads[i]? with
  | some .started => { s with threads := s.threads.set i (.seen s.pool) }
  | some (.seen p) => { pool := p ++ [i], threads := s.threads.set i .done }
  | _ => s

end FcRetrieval.Prng
