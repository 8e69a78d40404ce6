import Verif.Out.Plotter
/-!
# Saving an atlas (C213)

`Atlas.save` (src/f4enix/output/plotter.py:695-715) on a file system of folders and documents.
-/
namespace F4Enix.Plot
open F4Enix

/-- `os.path.join(a, b)` (Python, posixpath): an absolute second part replaces the first -/
def joinPath (a b : Str) : Str :=
  if b.head? = some '/' then b
  else if a = [] ∨ a.getLast? = some '/' then a ++ b
  else a ++ '/' :: b

/-- the part of a path before its last slash; `none` for a name in the current folder (Python, posixpath) -/
def parentOf (p : Str) : Option Str :=
  match p.reverse.dropWhile (fun c => c ≠ '/') with
  | [] => none
  | _ :: t => some t.reverse

/-- a file system: the folders (besides the root and the current one) and the documents by their path. Simplification: a path has one
spelling, rights and parents that are files are left out (Python) -/
structure Disk (γ : Type) where
  dirs : List Str
  docs : Dict Str (List (Block γ))

/-- why a file cannot be opened for writing (Python) -/
inductive OpenErr where
  | notFound
  | isDirectory
  deriving DecidableEq, Repr

/-- `open(path, "wb")` (Python): what is wrong, if anything -/
def openProblem {γ : Type} (d : Disk γ) (p : Str) : Option OpenErr :=
  if p ∈ d.dirs then some .isDirectory
  else match parentOf p with
    | none => none
    | some q => if q = [] ∨ q ∈ d.dirs then none else some .notFound

/-- `doc.save(path)` (docx, plotter.py:714) -/
def docSave {γ : Type} (d : Disk γ) (p : Str) (doc : List (Block γ)) : Except OpenErr (Disk γ) :=
  match openProblem d p with
  | some e => .error e
  | none => .ok { d with docs := Dict.set d.docs p doc }

/-- `Atlas.save(outpath)` (plotter.py:695-718): a `FileNotFoundError` is printed and nothing else happens -/
def atlasSave {γ : Type} (d : Disk γ) (outpath name : Str) (doc : List (Block γ)) : Except OpenErr (Disk γ) :=
  match docSave d (joinPath outpath (name ++ ".docx".toList)) doc with
  | .error .notFound => .ok d
  | .error e => .error e
  | .ok d' => .ok d'

/-- a folder as one writes it: not empty, no slash at the end (specification) -/
def FolderName (s : Str) : Prop := s ≠ [] ∧ s.getLast? ≠ some '/'

/-- the file of an atlas in a folder (specification) -/
def atlasFile (folder name : Str) : Str := folder ++ '/' :: (name ++ ".docx".toList)

theorem parent_slash {a b : Str} (hb : '/' ∉ b) : parentOf (a ++ '/' :: b) = some a := by
  unfold parentOf
  have e : (a ++ '/' :: b).reverse = b.reverse ++ '/' :: a.reverse := by simp
  rw [e, List.dropWhile_append_of_pos (by
    intro c hc
    have hc' : c ∈ b := List.mem_reverse.1 hc
    simp only [ne_eq, decide_not, Bool.not_eq_true', decide_eq_false_iff_not]
    rintro rfl
    exact hb hc')]
  simp

theorem docx_no_slash {n : Str} (h : '/' ∉ n) : '/' ∉ n ++ ".docx".toList := by
  rw [List.mem_append, not_or]
  exact ⟨h, by decide +kernel⟩

theorem join_name {folder n : Str} (hf : FolderName folder) (h : n.head? ≠ some '/') :
    joinPath folder (n ++ ".docx".toList) = atlasFile folder n := by
  unfold joinPath atlasFile
  have h1 : (n ++ ".docx".toList).head? ≠ some '/' := by
    cases n with
    | nil => decide +kernel
    | cons c n => simpa using h
  rw [if_neg h1, if_neg (by rintro (h' | h'); exacts [hf.1 h', hf.2 h'])]

theorem head_of_not_mem {n : Str} (h : '/' ∉ n) : n.head? ≠ some '/' := by
  cases n with
  | nil => simp
  | cons c n =>
    simp only [List.head?_cons, ne_eq, Option.some.injEq]
    rintro rfl
    exact h List.mem_cons_self

/-- C213 (part: the folder exists and the name has no slash): after the call the file of the atlas holds the document, and nothing else
has changed. -/
theorem save_partial {γ : Type} (d : Disk γ) {folder name : Str} (doc : List (Block γ)) (hf : FolderName folder) (hd : folder ∈ d.dirs)
    (hn : '/' ∉ name) (hfree : atlasFile folder name ∉ d.dirs) :
    ∃ d', atlasSave d folder name doc = .ok d' ∧ Dict.get? d'.docs (atlasFile folder name) = some doc ∧ d'.dirs = d.dirs ∧
      ∀ p, p ≠ atlasFile folder name → Dict.get? d'.docs p = Dict.get? d.docs p := by
  refine ⟨{ d with docs := Dict.set d.docs (atlasFile folder name) doc }, ?_, ?_, rfl, ?_⟩
  · unfold atlasSave docSave openProblem
    rw [join_name hf (head_of_not_mem hn), if_neg hfree]
    unfold atlasFile
    rw [parent_slash (docx_no_slash hn)]
    simp [hd]
  · exact Dict.get?_set_self ..
  · intro p hp
    exact Dict.get?_set_ne _ _ (Ne.symm hp)

/-- A folder may be given with a slash at its end: it is the same folder. -/
theorem save_slash {γ : Type} (d : Disk γ) {folder name : Str} (doc : List (Block γ)) (hf : FolderName folder) :
    atlasSave d (folder ++ ['/']) name doc = atlasSave d folder name doc := by
  have : joinPath (folder ++ ['/']) (name ++ ".docx".toList) = joinPath folder (name ++ ".docx".toList) := by
    unfold joinPath
    split
    · rfl
    · rw [if_pos (Or.inr (by simp)), if_neg (by rintro (h | h); exacts [hf.1 h, hf.2 h])]
      simp
  unfold atlasSave
  rw [this]

theorem drop_all {p : Char → Bool} : ∀ {l : Str}, (∀ c ∈ l, p c = true) → l.dropWhile p = []
  | [], _ => rfl
  | c :: l, h => by
    rw [List.dropWhile_cons, if_pos (h c List.mem_cons_self)]
    exact drop_all (fun d hd => h d (List.mem_cons_of_mem _ hd))

/-- An empty folder name is the current folder: the name alone is the path. -/
theorem save_here {γ : Type} (d : Disk γ) {name : Str} (doc : List (Block γ)) (hn : '/' ∉ name) (hfree : name ++ ".docx".toList ∉ d.dirs) :
    ∃ d', atlasSave d [] name doc = .ok d' ∧ Dict.get? d'.docs (name ++ ".docx".toList) = some doc := by
  have hj : joinPath [] (name ++ ".docx".toList) = name ++ ".docx".toList := by
    unfold joinPath
    rw [if_neg (head_of_not_mem (docx_no_slash hn)), if_pos (Or.inl rfl)]
    rfl
  have hp : parentOf (name ++ ".docx".toList) = none := by
    unfold parentOf
    have : (name ++ ".docx".toList).reverse.dropWhile (fun c => c ≠ '/') = [] := by
      refine drop_all (fun c hc => ?_)
      have hc' : c ∈ name ++ ".docx".toList := List.mem_reverse.mp hc
      have : c ≠ '/' := fun e => docx_no_slash hn (e ▸ hc')
      simpa using this
    rw [this]
  refine ⟨{ d with docs := Dict.set d.docs (name ++ ".docx".toList) doc }, ?_, Dict.get?_set_self ..⟩
  unfold atlasSave docSave openProblem
  rw [hj, if_neg hfree, hp]

/-- C213 is false in a folder that does not exist: the call returns, and nothing has been saved anywhere. -/
theorem save_lost {γ : Type} (d : Disk γ) {folder name : Str} (doc : List (Block γ)) (hf : FolderName folder) (hd : folder ∉ d.dirs)
    (hn : '/' ∉ name) (hfree : atlasFile folder name ∉ d.dirs) : atlasSave d folder name doc = .ok d := by
  unfold atlasSave docSave openProblem
  rw [join_name hf (head_of_not_mem hn), if_neg hfree]
  unfold atlasFile
  rw [parent_slash (docx_no_slash hn)]
  simp [hd, hf.1]

/-- C213 is false for a name with a slash, in every folder: unless there happens to be a folder of the name of its first part, the call
returns and nothing has been saved. -/
theorem slash_lost {γ : Type} (d : Disk γ) {folder a b : Str} (doc : List (Block γ)) (hf : FolderName folder) (ha : a ≠ [])
    (ha' : a.head? ≠ some '/') (hb : '/' ∉ b) (hd : folder ++ '/' :: a ∉ d.dirs) (hfree : atlasFile folder (a ++ '/' :: b) ∉ d.dirs) :
    atlasSave d folder (a ++ '/' :: b) doc = .ok d := by
  have hh : (a ++ '/' :: b).head? ≠ some '/' := by
    cases a with
    | nil => exact absurd rfl ha
    | cons c a => simpa using ha'
  unfold atlasSave docSave openProblem
  rw [join_name hf hh, if_neg hfree]
  have e : atlasFile folder (a ++ '/' :: b) = (folder ++ '/' :: a) ++ '/' :: (b ++ ".docx".toList) := by
    unfold atlasFile
    simp only [List.append_assoc, List.cons_append]
  rw [e, parent_slash (docx_no_slash hb)]
  simp only [List.append_eq_nil_iff, reduceCtorEq, and_false, false_or]
  rw [if_neg hd]

/-- A name that begins with a slash is taken as a whole path: the folder of the call does not matter. -/
theorem absolute_elsewhere {γ : Type} (d : Disk γ) (folder folder' name : Str) (doc : List (Block γ)) :
    atlasSave d folder ('/' :: name) doc = atlasSave d folder' ('/' :: name) doc := by
  unfold atlasSave joinPath
  simp

/-- Only a missing folder is passed over in silence: a folder in the place of the file ends the call. -/
theorem save_refused {γ : Type} (d : Disk γ) {folder name : Str} (doc : List (Block γ)) (hf : FolderName folder) (hn : '/' ∉ name)
    (hfree : atlasFile folder name ∈ d.dirs) : atlasSave d folder name doc = .error .isDirectory := by
  unfold atlasSave docSave openProblem
  rw [join_name hf (head_of_not_mem hn), if_pos hfree]

/-- Whatever happens, the documents at other paths stay. -/
theorem save_others {γ : Type} (d d' : Disk γ) (folder name : Str) (doc : List (Block γ)) (h : atlasSave d folder name doc = .ok d') (p : Str)
    (hp : p ≠ joinPath folder (name ++ ".docx".toList)) : Dict.get? d'.docs p = Dict.get? d.docs p ∧ d'.dirs = d.dirs := by
  unfold atlasSave docSave at h
  cases ho : openProblem d (joinPath folder (name ++ ".docx".toList)) with
  | none =>
    rw [ho] at h
    simp only [Except.ok.injEq] at h
    subst h
    exact ⟨Dict.get?_set_ne _ _ (Ne.symm hp), rfl⟩
  | some e =>
    rw [ho] at h
    cases e with
    | notFound =>
      simp only [Except.ok.injEq] at h
      subst h
      exact ⟨rfl, rfl⟩
    | isDirectory => simp at h

/-- a folder `out` and nothing in it (example) -/
def emptyDisk : Disk ℕ := ⟨["out".toList], []⟩

/-- C213 is false: an atlas called `n/p flux` is saved to a folder that exists; the call returns and the folder is empty. -/
theorem slash_name_lost (doc : List (Block ℕ)) :
    "out".toList ∈ emptyDisk.dirs ∧ atlasSave emptyDisk "out".toList "n/p flux".toList doc = .ok emptyDisk ∧ emptyDisk.docs = [] := by
  refine ⟨by decide +kernel, ?_, rfl⟩
  have e : "n/p flux".toList = "n".toList ++ '/' :: "p flux".toList := by decide +kernel
  rw [e]
  exact slash_lost emptyDisk doc ⟨by decide +kernel, by decide +kernel⟩ (by decide +kernel) (by decide +kernel) (by decide +kernel)
    (by decide +kernel) (by decide +kernel)

/-- the hypotheses of `save_partial` and `save_lost` are met -/
example : FolderName "out".toList ∧ "out".toList ∈ emptyDisk.dirs ∧ '/' ∉ "atlas".toList ∧ atlasFile "out".toList "atlas".toList ∉ emptyDisk.dirs ∧
    FolderName "results".toList ∧ "results".toList ∉ emptyDisk.dirs :=
  ⟨⟨by decide +kernel, by decide +kernel⟩, by decide +kernel, by decide +kernel, by decide +kernel, ⟨by decide +kernel, by decide +kernel⟩,
    by decide +kernel⟩

example : joinPath "out".toList ("atlas".toList ++ ".docx".toList) = "out/atlas.docx".toList := by decide +kernel

end F4Enix.Plot
