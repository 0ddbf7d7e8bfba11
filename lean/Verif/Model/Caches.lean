import Verif.Model.Mem
import Mathlib.Data.Nat.Digits.Defs
/-!
# The caches of the debug commands

`/repo/src/tools/dxt-lossless-transform-cli/src/debug_format`: the size cache
(`compression_size_cache.rs`), the compressed data cache (`compressed_data_cache.rs`) and the functions
that use them from several threads (`compression/helpers.rs`, `estimation/mod.rs`).

The threads of rayon are modelled by a step relation: a step is one critical section of the mutex, one
system call, or one answer of a compressor or an estimator.  Any thread may make the next step and calls
may begin at any time.  Errors of the operating system, of the estimator and of the compressor may occur
wherever the code handles them.

Simplifications: a mutex is never poisoned (the critical sections only call `HashMap::get` and
`HashMap::insert`); nobody else changes the cache directory; a write that has been made is never undone
and a crash stops all threads between two steps.
-/

namespace Dlt.Cache

/-- `CompressionAlgorithm`, compression/mod.rs:28-34. -/
inductive Algorithm where
  | zstandard
  | losslessTransformUtils
  deriving DecidableEq, Repr

/-- `CompressionAlgorithm::file_extension`, compression/mod.rs:38-43. -/
def Algorithm.extension : Algorithm → List Char
  | .zstandard => ['z', 's', 't']
  | .losslessTransformUtils => ['l', 't', 'u']

/-- `CompressionAlgorithm::supports_compress`, compression/mod.rs:70-75. -/
def Algorithm.supportsCompress : Algorithm → Bool
  | .zstandard => true
  | .losslessTransformUtils => false

/-- The key `(u128, i32, CompressionAlgorithm)` of the size cache, compression_size_cache.rs:16. -/
structure Key where
  hash : BitVec 128
  level : BitVec 32
  alg : Algorithm
  deriving DecidableEq, Repr

/-! ## The size cache in memory -/

/-- The `HashMap` of compression_size_cache.rs:16 as a list with at most one pair for a key.  The order of
the pairs stands for the iteration order of the map. -/
abbrev Sizes := List (Key × Nat)

/-- `get`, compression_size_cache.rs:78-87. -/
def Sizes.get (m : Sizes) (k : Key) : Option Nat := m.lookup k

/-- `insert`, compression_size_cache.rs:90-101: an earlier value for the key is replaced. -/
def Sizes.insert (m : Sizes) (k : Key) (n : Nat) : Sizes := (k, n) :: m.filter (fun e => decide (e.1 ≠ k))

/-! ## File names of the data cache -/

/-- The digit of a number below 16, as `{:x}` and decimal formatting write it. -/
def digit (n : Nat) : Char := ['0', '1', '2', '3', '4', '5', '6', '7', '8', '9', 'a', 'b', 'c', 'd', 'e', 'f'].getD n '?'

/-- A number in base `b` without padding; zero is written as one digit. -/
def digits (b n : Nat) : List Char := if n = 0 then ['0'] else ((Nat.digits b n).map digit).reverse

/-- `{:32x}`: the hexadecimal digits, padded with spaces on the left to 32 characters. -/
def hex32 (h : BitVec 128) : List Char :=
  List.replicate (32 - (digits 16 h.toNat).length) ' ' ++ digits 16 h.toNat

/-- `{}` of an `i32`. -/
def decimal (l : BitVec 32) : List Char :=
  if l.toInt < 0 then '-' :: digits 10 l.toInt.natAbs else digits 10 l.toInt.natAbs

/-- `cache_key`, compressed_data_cache.rs:39-50: the file name inside the cache directory. -/
def fileName (k : Key) : List Char := hex32 k.hash ++ '_' :: (decimal k.level ++ '.' :: k.alg.extension)

/-! ## Threads -/

/-- A call of one of the cached functions. -/
inductive Call where
  /-- `calc_size_with_cache_and_estimation_algorithm`, compression/helpers.rs:121-155, and
  `CachedSizeEstimator::estimate_compressed_size`, estimation/mod.rs:143-183. -/
  | size (data : Buf) (level : BitVec 32) (alg : Algorithm)
  /-- `compress_data_cached`, compression/helpers.rs:43-84. -/
  | compress (data : Buf) (level : BitVec 32) (alg : Algorithm)
  deriving DecidableEq, Repr

/-- The result of a call. -/
inductive Reply where
  | size (n : Nat)
  /-- The bytes `[..compressed_size]` of the compressed data. -/
  | data (bytes : Buf)
  | error
  deriving DecidableEq, Repr

/-- How far a call has come. -/
inductive Pc where
  /-- before the first critical section, compression/helpers.rs:130 -/
  | lookup
  /-- not in the cache, the estimator works, compression/helpers.rs:140 -/
  | estimating
  /-- before the second critical section, compression/helpers.rs:145 -/
  | storing (n : Nat)
  /-- before `exists`, compressed_data_cache.rs:65 -/
  | asking
  /-- before `File::open`, compressed_data_cache.rs:69 -/
  | opening
  /-- inside `read_to_end`, compressed_data_cache.rs:73, with the bytes read so far -/
  | reading (got : Buf)
  /-- not in the cache, the compressor works, compression/helpers.rs:64 -/
  | compressing
  /-- before `create_dir_all`, compressed_data_cache.rs:91 -/
  | makingDir (out : Buf)
  /-- before `File::create`, compressed_data_cache.rs:95 -/
  | creating (out : Buf)
  /-- inside `write_all`, compressed_data_cache.rs:98, with the number of bytes written so far -/
  | writing (out : Buf) (off : Nat)
  /-- before the insertion into the size cache, compression/helpers.rs:79 -/
  | recording (out : Buf)
  | done (r : Reply)
  | panicked
  deriving DecidableEq, Repr

/-- What the estimators, the compressors and, where it matters, the operating system have answered so far. -/
inductive Made where
  | estimated (data : Buf) (level : BitVec 32) (alg : Algorithm) (n : Nat)
  | compressed (data : Buf) (level : BitVec 32) (alg : Algorithm) (out : Buf)
  | writeFailed (data : Buf) (level : BitVec 32) (alg : Algorithm)
  deriving DecidableEq, Repr

/-- What the threads share.  `made` is a record for the statements; the code has no such thing. -/
structure Shared where
  sizes : Sizes
  files : List Char → Option Buf
  made : List Made

/-- `write` at an offset: the file grows if need be, a gap is filled with zeros. -/
def writeAt (file : Buf) (off : Nat) (bs : Buf) : Buf :=
  file.take off ++ List.replicate (off - file.length) 0 ++ bs ++ file.drop (off + bs.length)

/-- A file gets new contents. -/
def setFile (files : List Char → Option Buf) (name : List Char) (b : Buf) : List Char → Option Buf :=
  fun n => if n = name then some b else files n

/-- The steps of one call.  `hash` is `calculate_content_hash`, debug_format/mod.rs:72-74. -/
inductive Local (hash : Buf → BitVec 128) : Call → Shared → Pc → Shared → Pc → Prop where
  /-- compression/helpers.rs:129-136, estimation/mod.rs:155-162 -/
  | hit {d l a s n} (h : s.sizes.get ⟨hash d, l, a⟩ = some n) :
      Local hash (.size d l a) s .lookup s (.done (.size n))
  /-- compression/helpers.rs:129-136, estimation/mod.rs:155-162 -/
  | miss {d l a s} (h : s.sizes.get ⟨hash d, l, a⟩ = none) :
      Local hash (.size d l a) s .lookup s .estimating
  /-- compression/helpers.rs:139-140, estimation/mod.rs:165-167 -/
  | estimated {d l a s n} :
      Local hash (.size d l a) s .estimating { s with made := .estimated d l a n :: s.made } (.storing n)
  /-- the `?` of compression/helpers.rs:140 and estimation/mod.rs:167 -/
  | estimatorFails {d l a s} : Local hash (.size d l a) s .estimating s (.done .error)
  /-- compression/helpers.rs:143-154, estimation/mod.rs:170-182 -/
  | store {d l a s n} :
      Local hash (.size d l a) s (.storing n) { s with sizes := s.sizes.insert ⟨hash d, l, a⟩ n }
        (.done (.size n))
  /-- compressed_data_cache.rs:65-67 -/
  | present {d l a s b} (h : s.files (fileName ⟨hash d, l, a⟩) = some b) :
      Local hash (.compress d l a) s .asking s .opening
  /-- compressed_data_cache.rs:65-67 -/
  | absent {d l a s} (h : s.files (fileName ⟨hash d, l, a⟩) = none) :
      Local hash (.compress d l a) s .asking s .compressing
  /-- compressed_data_cache.rs:69-70 -/
  | openOk {d l a s} : Local hash (.compress d l a) s .opening s (.reading [])
  | openFails {d l a s} : Local hash (.compress d l a) s .opening s (.done .error)
  /-- A `read` of `read_to_end` gives at least one of the bytes that follow. -/
  | read {d l a s got b m} (h : s.files (fileName ⟨hash d, l, a⟩) = some b) (hm : 0 < m)
      (hb : got.length < b.length) :
      Local hash (.compress d l a) s (.reading got) s (.reading (got ++ (b.drop got.length).take m))
  /-- A `read` at the end of the file gives nothing, which ends `read_to_end`;
  compressed_data_cache.rs:76-79, compression/helpers.rs:53-60. -/
  | readEnd {d l a s got b} (h : s.files (fileName ⟨hash d, l, a⟩) = some b) (hb : b.length ≤ got.length) :
      Local hash (.compress d l a) s (.reading got) s (.done (.data got))
  | readFails {d l a s got} : Local hash (.compress d l a) s (.reading got) s (.done .error)
  /-- compression/helpers.rs:63-64 -/
  | compressed {d l a s out} (ha : a.supportsCompress = true) :
      Local hash (.compress d l a) s .compressing { s with made := .compressed d l a out :: s.made }
        (.makingDir out)
  | compressorFails {d l a s} (ha : a.supportsCompress = true) :
      Local hash (.compress d l a) s .compressing s (.done .error)
  /-- `todo!()`, compression/mod.rs:159 -/
  | unsupported {d l a s} (ha : a.supportsCompress = false) :
      Local hash (.compress d l a) s .compressing s .panicked
  /-- compressed_data_cache.rs:91 -/
  | madeDir {d l a s out} : Local hash (.compress d l a) s (.makingDir out) s (.creating out)
  /-- The error becomes a warning, compression/helpers.rs:67-75. -/
  | makeDirFails {d l a s out} : Local hash (.compress d l a) s (.makingDir out) s (.recording out)
  /-- `File::create` empties a file that exists, compressed_data_cache.rs:95-96 -/
  | create {d l a s out} :
      Local hash (.compress d l a) s (.creating out)
        { s with files := setFile s.files (fileName ⟨hash d, l, a⟩) [] } (.writing out 0)
  | createFails {d l a s out} : Local hash (.compress d l a) s (.creating out) s (.recording out)
  /-- A `write` of `write_all` takes at least one of the bytes that are left. -/
  | write {d l a s out off b m} (h : s.files (fileName ⟨hash d, l, a⟩) = some b) (hm : 0 < m)
      (ho : off + m ≤ out.length) :
      Local hash (.compress d l a) s (.writing out off)
        { s with files := setFile s.files (fileName ⟨hash d, l, a⟩) (writeAt b off ((out.drop off).take m)) }
        (.writing out (off + m))
  /-- All bytes are written, compressed_data_cache.rs:101 -/
  | writeEnd {d l a s out off} (ho : out.length ≤ off) :
      Local hash (.compress d l a) s (.writing out off) s (.recording out)
  /-- The disk is full, say: the file stays as it is and the error becomes a warning. -/
  | writeFails {d l a s out off} :
      Local hash (.compress d l a) s (.writing out off) { s with made := .writeFailed d l a :: s.made }
        (.recording out)
  /-- compression/helpers.rs:78-83 -/
  | record {d l a s out} :
      Local hash (.compress d l a) s (.recording out)
        { s with sizes := s.sizes.insert ⟨hash d, l, a⟩ out.length } (.done (.data out))

/-- The state of the process. -/
structure State where
  shared : Shared
  threads : List (Call × Pc)

/-- Where a call begins. -/
def Call.begin : Call → Pc
  | .size _ _ _ => .lookup
  | .compress _ _ _ => .asking

/-- A call begins, or one of the calls makes a step. -/
inductive Step (hash : Buf → BitVec 128) : State → State → Prop where
  | start {s} (c : Call) : Step hash s ⟨s.shared, s.threads ++ [(c, c.begin)]⟩
  | work {s} (i : Nat) {c pc sh' pc'} (hi : s.threads[i]? = some (c, pc))
      (h : Local hash c s.shared pc sh' pc') : Step hash s ⟨sh', s.threads.set i (c, pc')⟩

/-- Any number of steps. -/
inductive Steps (hash : Buf → BitVec 128) : State → State → Prop where
  | refl (s) : Steps hash s s
  | tail {a b c} : Steps hash a b → Step hash b c → Steps hash a c

/-- A process that has just started: the size cache as loaded, the files as found. -/
def initial (sizes : Sizes) (files : List Char → Option Buf) : State := ⟨⟨sizes, files, []⟩, []⟩

/-! ## The size cache on disk

`bincode` 2 with `config::standard()`: little endian, variable length integers.  The library is not part
of the repository; the functions below follow its specification for the types of the cache. -/

/-- `n` bytes of a number, lowest first. -/
def leBytes : Nat → Nat → Buf
  | 0, _ => []
  | n + 1, v => BitVec.ofNat 8 v :: leBytes n (v / 256)

/-- The number of such bytes. -/
def ofLe : Buf → Nat
  | [] => 0
  | b :: bs => b.toNat + 256 * ofLe bs

/-- A decoder reads from the front of a stream and returns the rest; `none` is an error. -/
abbrev Decoder (α : Type) := Buf → Option (α × Buf)

/-- `read_exact`. -/
def take (n : Nat) : Decoder Buf := fun b => if n ≤ b.length then some (b.take n, b.drop n) else none

/-- A variable length integer: one byte below 251, or a marker and 2, 4, 8 or 16 bytes. -/
def encVar (v : Nat) : Buf :=
  if v < 251 then [BitVec.ofNat 8 v]
  else if v < 2 ^ 16 then 251 :: leBytes 2 v
  else if v < 2 ^ 32 then 252 :: leBytes 4 v
  else if v < 2 ^ 64 then 253 :: leBytes 8 v
  else 254 :: leBytes 16 v

/-- Its decoder for a type of `size` bytes; wider encodings are errors. -/
def decVar (size : Nat) : Decoder Nat
  | [] => none
  | m :: b =>
    if m.toNat < 251 then some (m.toNat, b)
    else if m = 251 then (take 2 b).map (fun r => (ofLe r.1, r.2))
    else if m = 252 ∧ 4 ≤ size then (take 4 b).map (fun r => (ofLe r.1, r.2))
    else if m = 253 ∧ 8 ≤ size then (take 8 b).map (fun r => (ofLe r.1, r.2))
    else if m = 254 ∧ 16 ≤ size then (take 16 b).map (fun r => (ofLe r.1, r.2))
    else none

/-- Signed integers are encoded zigzag. -/
def zigzag (l : BitVec 32) : Nat := if l.toInt < 0 then 2 * l.toInt.natAbs - 1 else 2 * l.toInt.natAbs

/-- The inverse. -/
def unzigzag (n : Nat) : BitVec 32 :=
  if n % 2 = 0 then BitVec.ofNat 32 (n / 2) else BitVec.ofInt 32 (-(Int.ofNat (n / 2)) - 1)

/-- The derived `Encode` of `CompressionAlgorithm`, compression/mod.rs:24: the number of the variant. -/
def Algorithm.number : Algorithm → Nat
  | .zstandard => 0
  | .losslessTransformUtils => 1

/-- The derived `Decode`, compression/mod.rs:25: other numbers are errors. -/
def Algorithm.ofNumber : Nat → Option Algorithm
  | 0 => some .zstandard
  | 1 => some .losslessTransformUtils
  | _ => none

/-- A pair of the map. -/
def encEntry (e : Key × Nat) : Buf :=
  encVar e.1.hash.toNat ++ (encVar (zigzag e.1.level) ++ (encVar e.1.alg.number ++ encVar e.2))

/-- Its decoder. -/
def decEntry : Decoder (Key × Nat) := fun b =>
  match decVar 16 b with
  | none => none
  | some (h, b) =>
    match decVar 4 b with
    | none => none
    | some (l, b) =>
      match decVar 4 b with
      | none => none
      | some (a, b) =>
        match Algorithm.ofNumber a with
        | none => none
        | some a =>
          match decVar 8 b with
          | none => none
          | some (n, b) => some ((⟨BitVec.ofNat 128 h, unzigzag l, a⟩, n), b)

/-- The pairs one after the other. -/
def encEntries : Sizes → Buf
  | [] => []
  | e :: m => encEntry e ++ encEntries m

/-- `n` pairs are read and inserted in turn. -/
def decEntries : Nat → Sizes → Decoder Sizes
  | 0, m, b => some (m, b)
  | n + 1, m, b =>
    match decEntry b with
    | none => none
    | some (e, b) => decEntries n (m.insert e.1 e.2) b

/-- `encode_into_std_write` of the map: the number of pairs, then the pairs. -/
def encode (m : Sizes) : Buf := encVar m.length ++ encEntries m

/-- `decode_from_std_read`; what follows the map in the file is not read. -/
def decode (b : Buf) : Option Sizes :=
  match decVar 8 b with
  | none => none
  | some (n, b) =>
    match decEntries n [] b with
    | none => none
    | some (m, _) => some m

/-- `load_from_disk`, compression_size_cache.rs:38-50, for a cache file that can be opened and read: the
map of the process afterwards and whether the call succeeded.  On an error the assignment does not happen. -/
def load (file : Option Buf) (m : Sizes) : Sizes × Bool :=
  match file with
  | none => (m, true)
  | some b =>
    match decode b with
    | none => (m, false)
    | some m' => (m', true)

/-- The contents of the cache file at the moments of `save_to_disk`, compression_size_cache.rs:53-72, when
`old` was there before: unchanged until it is opened, then empty (`truncate`), then growing. -/
inductive SavePoint (m : Sizes) (old : Option Buf) : Option Buf → Prop where
  | before : SavePoint m old old
  | during (written : Nat) : SavePoint m old (some ((encode m).take written))

end Dlt.Cache
