import Verif.Out.Rssa
/-!
# What an RSSA file and a current map are (independent of the reader)
-/
namespace F4Enix.Rssa
open F4Enix

/-- `k` bytes of `n`, least significant first (specification) -/
def leBytes : Nat → Nat → List Byte
  | 0, _ => []
  | k + 1, n => ⟨n % 256, Nat.mod_lt _ (by decide)⟩ :: leBytes k (n / 256)

/-- a signed integer in `k` bytes (specification) -/
def encInt (k : Nat) (i : ℤ) : List Byte := leBytes k (i % (256 : ℤ) ^ k).toNat

/-- the integer fits in `k` bytes (specification) -/
def Fits (k : Nat) (i : ℤ) : Prop := -(256 : ℤ) ^ k ≤ 2 * i ∧ 2 * i < (256 : ℤ) ^ k

/-- a Fortran sequential record: its length before and after (specification) -/
def record (data : List Byte) : List Byte :=
  encInt 4 data.length ++ data ++ encInt 4 data.length

/-- the record of a surface (specification) -/
def surfaceBytes (s : Surface) : List Byte :=
  encInt 4 s.id ++ encInt 4 s.info ++ encInt 4 s.type ++ encInt 4 s.numParams ++
    (s.params.map (encInt 4)).flatten

/-- the contents of an RSSA file (specification) -/
structure Contents where
  title : List Byte
  p : Params
  summary : List Byte
  /-- the eleven 8-byte numbers of every track -/
  tracks : List (List (List Byte))

/-- the bytes of an RSSA file: title record, the run parameters, the sizes, one record per surface, the
summary, one record per track (specification) -/
def Contents.bytes (c : Contents) : List Byte :=
  record c.title ++
  (record (encInt 8 c.p.np1 ++ encInt 8 c.p.nrss ++ encInt 4 c.p.nrcd ++ encInt 4 c.p.njsw ++
    encInt 8 c.p.niss) ++
  (record (encInt 4 c.p.niwr ++ encInt 4 c.p.mipts ++ encInt 4 c.p.kjaq) ++
  ((c.p.surfaces.map (fun s => record (surfaceBytes s))).flatten ++
  (record c.summary ++
  (c.tracks.map (fun t => record t.flatten)).flatten))))

/-- a surface whose numbers fit in the record (specification) -/
def Surface.Ok (s : Surface) : Prop :=
  Fits 4 s.id ∧ Fits 4 s.info ∧ Fits 4 s.type ∧ Fits 4 s.numParams ∧ (∀ p ∈ s.params, Fits 4 p) ∧
  Fits 4 (surfaceBytes s).length

/-- a file of the kind the reader supports (specification) -/
structure Contents.Ok (utf8 : List Byte → Bool) (c : Contents) : Prop where
  title_len : Fits 4 c.title.length
  title_utf8 : utf8 c.title = true
  title_code : magic <:+: c.title
  summary_len : Fits 4 c.summary.length
  np1 : Fits 8 c.p.np1 ∧ c.p.np1 < 0
  nrss : Fits 8 c.p.nrss
  nrcd : c.p.nrcd = 11
  njsw : Fits 4 c.p.njsw ∧ c.p.njsw = c.p.surfaces.length
  niss : Fits 8 c.p.niss
  niwr : c.p.niwr = 0
  mipts : Fits 4 c.p.mipts
  kjaq : Fits 4 c.p.kjaq
  surfaces : ∀ s ∈ c.p.surfaces, s.Ok
  tracks : ∀ t ∈ c.tracks, t.length = 11 ∧ ∀ w ∈ t, w.length = 8

/-- what the user sees of a surface: the `info` field only counts for macrobodies (specification) -/
def Surface.seen (kjaq : ℤ) (s : Surface) : Surface :=
  { s with info := if kjaq = 1 then s.info else -1 }

/-- cell `i` of `n` equal cells between `lo` and `hi` holds the value `v`; the last cell is closed (specification) -/
def InCell (lo hi : ℚ) (n i : Nat) (v : ℚ) : Prop :=
  i < n ∧ lo + i * ((hi - lo) / n) ≤ v ∧
    (v < lo + (i + 1) * ((hi - lo) / n) ∨ (i + 1 = n ∧ v = hi))

instance (lo hi : ℚ) (n i : Nat) (v : ℚ) : Decidable (InCell lo hi n i v) :=
  inferInstanceAs (Decidable (_ ∧ _ ∧ _))

/-- `lo` is the least of the values (specification) -/
def IsLeast (lo : ℚ) (l : List ℚ) : Prop := lo ∈ l ∧ ∀ v ∈ l, lo ≤ v

/-- `hi` is the greatest of the values (specification) -/
def IsGreatest (hi : ℚ) (l : List ℚ) : Prop := hi ∈ l ∧ ∀ v ∈ l, v ≤ hi

end F4Enix.Rssa
