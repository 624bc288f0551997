import Verif.Model.Files
import Verif.Props.C55

/-!
# C84: files are opened, saved and closed as they should be
-/

namespace Go3mf

open Spec

/-- The file of this name has this content. -/
def FileIs (d : Disk) (name b : Str) : Prop :=
  ∃ before i after, d.dir = before ++ (name, i) :: after ∧ name ∉ before.map (·.1) ∧ d.data[i]? = some b

/-- There is no file of this name. -/
def NoFile (d : Disk) (name : Str) : Prop := name ∉ d.dir.map (·.1)

/-- The process has this file open. -/
def OpenIn (d : Disk) (f : Nat) : Prop := ∃ x, d.files[f]? = some x ∧ x.isOpen = true

/-- All names lead to contents, and no content has two names. -/
structure Disk.Sound (d : Disk) : Prop where
  dir : ∀ x ∈ d.dir, x.2 < d.data.length
  single : ∀ x ∈ d.dir, ∀ y ∈ d.dir, x.2 = y.2 → x.1 = y.1

/-- The bytes as an `io.ReaderAt`. -/
def bytesAt (b : Str) (off n : Nat) : Option Str := if off + n ≤ b.length then some ((b.drop off).take n) else none

/-- The library reads only within the size that it is given, like `archive/zip`, and it returns an error if nothing can be read. -/
structure PkgLib.Careful (lib : PkgLib) : Prop where
  within : ∀ (r r' : Nat → Nat → Option Str) (size : Nat), (∀ off n, off + n ≤ size → r off n = r' off n) →
    lib.read r size = lib.read r' size
  errors : ∀ size, lib.read (fun _ _ => none) size = none

/-- What the library has written for this package it reads as this package. -/
def PkgLib.Faithful (lib : PkgLib) (out : OutPkg) : Prop :=
  ∃ again, Reopened out again ∧ lib.read (bytesAt (lib.write out).flatten) (lib.write out).flatten.length = some again

/-! ## Lemmas -/

theorem disk_lookup_some {d : Disk} {name : Str} {i : Nat} (h : d.lookup name = some i) :
    ∃ before after, d.dir = before ++ (name, i) :: after ∧ name ∉ before.map (·.1) := by
  simp only [Disk.lookup, Option.map_eq_some_iff] at h
  obtain ⟨x, hx, rfl⟩ := h
  obtain ⟨h1, before, after, h2, h3⟩ := List.find?_eq_some_iff_append.1 hx
  simp only [decide_eq_true_eq] at h1
  refine ⟨before, after, ?_, ?_⟩
  · rw [h2, ← h1]
  · intro h
    obtain ⟨y, hy, hn⟩ := List.mem_map.1 h
    have := h3 y hy
    simp [hn] at this

theorem disk_lookup_of {d : Disk} {name : Str} {i : Nat} {before after : List (Str × Nat)}
    (h : d.dir = before ++ (name, i) :: after) (hn : name ∉ before.map (·.1)) : d.lookup name = some i := by
  simp only [Disk.lookup, h, Option.map_eq_some_iff]
  refine ⟨(name, i), ?_, rfl⟩
  rw [List.find?_append, List.find?_eq_none.2, List.find?_cons_of_pos (by simp)]
  · rfl
  · intro x hx
    simp only [decide_eq_true_eq]
    exact fun e => hn (List.mem_map.2 ⟨x, hx, e⟩)

theorem disk_lookup_none {d : Disk} {name : Str} : d.lookup name = none ↔ NoFile d name := by
  simp only [Disk.lookup, NoFile, Option.map_eq_none_iff, List.find?_eq_none, decide_eq_true_eq, List.mem_map, not_exists, not_and]

theorem fileIs_iff {d : Disk} {name b : Str} : FileIs d name b ↔ ∃ i, d.lookup name = some i ∧ d.data[i]? = some b := by
  constructor
  · rintro ⟨before, i, after, h1, h2, h3⟩
    exact ⟨i, disk_lookup_of h1 h2, h3⟩
  · rintro ⟨i, h1, h2⟩
    obtain ⟨before, after, h3, h4⟩ := disk_lookup_some h1
    exact ⟨before, i, after, h3, h4, h2⟩

theorem disk_lookup_mem {d : Disk} {name : Str} {i : Nat} (h : d.lookup name = some i) : (name, i) ∈ d.dir := by
  obtain ⟨before, after, h3, -⟩ := disk_lookup_some h
  rw [h3]; simp

theorem openIn_add {d : Disk} {i : Nat} (f : Nat) : OpenIn (d.addFile i) f ↔ OpenIn d f ∨ f = d.files.length := by
  simp only [OpenIn, Disk.addFile]
  rcases Nat.lt_trichotomy f d.files.length with h | h | h
  · rw [List.getElem?_append_left h]
    constructor
    · exact .inl
    · rintro (h' | h')
      · exact h'
      · omega
  · subst h
    simp
  · rw [List.getElem?_eq_none (by simp; omega), List.getElem?_eq_none (by omega)]
    simp
    omega

theorem close_openIn {os : Os} {d : Disk} {f : Nat} (g : Nat) : OpenIn (osClose os d f).2 g ↔ OpenIn d g ∧ g ≠ f := by
  simp only [osClose]
  cases h : d.files[f]? with
  | none =>
    simp only
    constructor
    · intro h'
      refine ⟨h', ?_⟩
      rintro rfl
      obtain ⟨x, hx, -⟩ := h'
      rw [h] at hx; cases hx
    · exact fun h => h.1
  | some x =>
    simp only
    have hlt : f < d.files.length := (List.getElem?_eq_some_iff.1 h).1
    by_cases hx : x.isOpen = true
    · rw [if_pos hx]
      simp only [OpenIn, List.getElem?_set]
      by_cases e : f = g
      · subst e
        simp [hlt]
      · rw [if_neg e]
        exact ⟨fun h => ⟨h, fun e' => e e'.symm⟩, fun h => h.1⟩
    · rw [if_neg hx]
      constructor
      · intro h'
        refine ⟨h', ?_⟩
        rintro rfl
        obtain ⟨y, hy, ho⟩ := h'
        rw [h] at hy; cases hy; exact hx ho
      · exact fun h => h.1

theorem close_disk {os : Os} {d : Disk} {f : Nat} :
    (osClose os d f).2.dir = d.dir ∧ (osClose os d f).2.data = d.data := by
  simp only [osClose]
  split
  · exact ⟨rfl, rfl⟩
  · split <;> exact ⟨rfl, rfl⟩

theorem write_frame {os : Os} {d : Disk} {f : Nat} {p : Str} {x : OsFile} (h : d.files[f]? = some x) (b : Bool) (d' : Disk)
    (hw : osWrite os d f p = (b, d')) : d'.dir = d.dir ∧ (∀ j, j ≠ x.inode → d'.data[j]? = d.data[j]?) ∧
      (∀ g, OpenIn d' g ↔ OpenIn d g) ∧ (∃ y, d'.files[f]? = some y ∧ y.inode = x.inode) ∧
      d'.data.length = d.data.length := by
  simp only [osWrite, h] at hw
  have hlt : f < d.files.length := (List.getElem?_eq_some_iff.1 h).1
  split at hw
  · rename_i ho
    injection hw with h1 h2
    subst h2
    refine ⟨rfl, ?_, ?_, ?_, by simp⟩
    · intro j hj
      simp only
      rw [List.getElem?_modify]
      simp [show ¬ x.inode = j from fun e => hj e.symm]
    · intro g
      simp only [OpenIn, List.getElem?_set]
      by_cases e : f = g
      · subst e
        rw [if_pos rfl, if_pos hlt, h]
        constructor
        · exact fun _ => ⟨x, rfl, ho⟩
        · exact fun _ => ⟨_, rfl, ho⟩
      · rw [if_neg e]
    · simp only [List.getElem?_set]
      simp [hlt]
  · injection hw with h1 h2
    subst h2
    exact ⟨rfl, fun _ _ => rfl, fun _ => Iff.rfl, ⟨x, h, rfl⟩, rfl⟩

theorem writeAll_frame {os : Os} {f : Nat} : ∀ (ps : List Str) {d : Disk} {x : OsFile}, d.files[f]? = some x →
    ∀ (b : Bool) (d' : Disk), writeAll os f ps d = (b, d') → d'.dir = d.dir ∧ (∀ j, j ≠ x.inode → d'.data[j]? = d.data[j]?) ∧
      (∀ g, OpenIn d' g ↔ OpenIn d g) ∧ d'.data.length = d.data.length
  | [], d, x, h, b, d', hw => by
    simp only [writeAll] at hw
    injection hw with _ h2
    subst h2
    exact ⟨rfl, fun _ _ => rfl, fun _ => Iff.rfl, rfl⟩
  | p :: ps, d, x, h, b, d', hw => by
    simp only [writeAll] at hw
    cases hq : osWrite os d f p with
    | mk ok d1 =>
      rw [hq] at hw
      obtain ⟨a1, a2, a3, ⟨y, a4, a5⟩, a6⟩ := write_frame h ok d1 hq
      cases ok with
      | false =>
        simp only at hw
        injection hw with _ h2
        subst h2
        exact ⟨a1, a2, a3, a6⟩
      | true =>
        simp only at hw
        obtain ⟨b1, b2, b3, b4⟩ := writeAll_frame ps a4 b d' hw
        exact ⟨b1.trans a1, fun j hj => (b2 j (by rw [a5]; exact hj)).trans (a2 j hj), fun g => (b3 g).trans (a3 g), b4.trans a6⟩

theorem writeAll_ok {os : Os} {f : Nat} : ∀ (ps : List Str) {d : Disk} {x : OsFile} {acc : Str}, d.files[f]? = some x → x.isOpen = true →
    d.data[x.inode]? = some acc → x.pos = acc.length →
    ∀ (d' : Disk), writeAll os f ps d = (true, d') → d'.data[x.inode]? = some (acc ++ ps.flatten)
  | [], d, x, acc, h, ho, hd, hp, d', hw => by
    simp only [writeAll] at hw
    injection hw with _ h2
    subst h2
    simpa using hd
  | p :: ps, d, x, acc, h, ho, hd, hp, d', hw => by
    have hlt : f < d.files.length := (List.getElem?_eq_some_iff.1 h).1
    simp only [writeAll] at hw
    cases hq : osWrite os d f p with
    | mk ok d1 =>
      rw [hq] at hw
      cases ok with
      | false => simp at hw
      | true =>
        simp only at hw
        simp only [osWrite, h, ho, if_true] at hq
        injection hq with h1 h2
        simp only [decide_eq_true_eq] at h1
        have hq : p.take (os.takes x.pos p) = p := (List.take_prefix _ _).eq_of_length h1
        rw [hq] at h2
        subst h2
        have := writeAll_ok ps (d := _) (x := { x with pos := x.pos + p.length }) (acc := acc ++ p)
          (by simp only [List.getElem?_set]; simp [hlt, ho]) ho
          (by
            simp only [List.getElem?_modify, hd, putAt, hp]
            simp) (by simp [hp]) d' hw
        simpa using this

/-! ## The theorems -/

variable {os : Os} {o : Opc} {lib : PkgLib} {prec : Int} {d : Disk} {name : Str}

/-- **C84**: `OpenReader` changes no file.  If it returns an error, then no file is left open.  If not, then one file has been
opened, which leads to the content of the file with the name, and the decoder knows its size. -/
theorem C84_open (hd : d.Sound) {res : Option ReadCloser} {d' : Disk} (h : openReader os d name = (res, d')) :
    d'.dir = d.dir ∧ d'.data = d.data ∧
    (res = none → (∀ f, OpenIn d' f ↔ OpenIn d f) ∧ (NoFile d name ∨ os.opens name = false ∨ os.stats = false)) ∧
    ∀ r, res = some r → ¬ OpenIn d r.f ∧ (∀ f, OpenIn d' f ↔ OpenIn d f ∨ f = r.f) ∧
      ∃ b, FileIs d name b ∧ r.size = b.length ∧ ∀ off n, osReadAt d' r.f off n = bytesAt b off n := by
  simp only [openReader, osOpen] at h
  cases hl : d.lookup name with
  | none =>
    rw [hl] at h
    simp only at h
    injection h with h1 h2
    subst h1 h2
    exact ⟨rfl, rfl, fun _ => ⟨fun _ => Iff.rfl, .inl (disk_lookup_none.1 hl)⟩, fun r hr => by cases hr⟩
  | some i =>
    rw [hl] at h
    simp only at h
    cases ho : os.opens name with
    | false =>
      rw [ho] at h
      simp only [Bool.false_eq_true, if_false] at h
      injection h with h1 h2
      subst h1 h2
      exact ⟨rfl, rfl, fun _ => ⟨fun _ => Iff.rfl, .inr (.inl rfl)⟩, fun r hr => by cases hr⟩
    | true =>
      rw [ho] at h
      simp only [if_true] at h
      have hi : i < d.data.length := hd.dir _ (disk_lookup_mem hl)
      have hr : (d.addFile i).reads d.files.length = some d.data[i] := by
        simp [Disk.reads, Disk.addFile, hi]
      have hn : ¬ OpenIn d d.files.length := by
        rintro ⟨x, hx, -⟩
        rw [List.getElem?_eq_none (Nat.le_refl _)] at hx
        cases hx
      cases hs : os.stats with
      | false =>
        simp only [osStat, hs, Bool.false_eq_true, if_false] at h
        injection h with h1 h2
        subst h1 h2
        obtain ⟨c1, c2⟩ := close_disk (os := os) (d := d.addFile i) (f := d.files.length)
        refine ⟨c1, c2, fun _ => ⟨fun f => ?_, .inr (.inr rfl)⟩, fun r hr => by cases hr⟩
        rw [close_openIn, openIn_add]
        constructor
        · rintro ⟨h | h, h'⟩
          · exact h
          · exact absurd h h'
        · intro h
          refine ⟨.inl h, ?_⟩
          rintro rfl
          exact hn h
      | true =>
        simp only [osStat, hs, if_true, hr, Option.map_some] at h
        injection h with h1 h2
        subst h1 h2
        refine ⟨rfl, rfl, fun h => by simp at h, fun r hr' => ?_⟩
        injection hr' with hr'
        subst hr'
        refine ⟨hn, fun f => openIn_add f, d.data[i], fileIs_iff.2 ⟨i, hl, by simp [hi]⟩, rfl, fun off n => ?_⟩
        simp only [osReadAt, hr, bytesAt]

/-- **C84**: what is decoded is the content that the file had when it was opened, also if the file has been renamed, removed or
replaced, or if bytes have been appended to it, since then. -/
theorem C84_read (hd : d.Sound) (hlib : lib.Careful) {r : ReadCloser} {d1 : Disk} (h : openReader os d name = (some r, d1)) {b : Str}
    (hb : FileIs d name b) {d2 : Disk} (hf : d2.files[r.f]? = d1.files[r.f]?)
    (hc : ∀ x, d1.files[r.f]? = some x → ∃ more, d2.data[x.inode]? = some (b ++ more))
    {c : PkgCfg} {m m' : Model} {res : Option PkgResult} : r.Decodes c o lib d2 m m' res ↔
      (lib.read (bytesAt b) b.length = none ∧ m' = m ∧ res = none) ∨
      ∃ pk x, lib.read (bytesAt b) b.length = some pk ∧ res = some x ∧ DecodesBg c o pk m m' x := by
  obtain ⟨-, -, -, h4⟩ := C84_open hd h
  obtain ⟨-, h5, b', hb', h6, -⟩ := h4 r rfl
  have e : b' = b := by
    obtain ⟨i, k1, k2⟩ := fileIs_iff.1 hb
    obtain ⟨i', k3, k4⟩ := fileIs_iff.1 hb'
    rw [k1] at k3
    injection k3 with k3
    subst k3
    rw [k2] at k4
    injection k4 with k4
    exact k4.symm
  subst e
  obtain ⟨x, hx, hxo⟩ := (h5 r.f).2 (.inr rfl)
  obtain ⟨more, hm⟩ := hc x hx
  have hr : d2.reads r.f = some (b' ++ more) := by
    simp only [Disk.reads, hf, hx, hxo, if_true, hm]
  have hw : lib.read (osReadAt d2 r.f) r.size = lib.read (bytesAt b') b'.length := by
    rw [h6]
    apply hlib.within
    intro off n hn
    simp only [osReadAt, hr, bytesAt, if_pos hn, List.length_append]
    rw [if_pos (by omega), List.drop_append_of_le_length (by omega), List.take_append_of_le_length (by simp; omega)]
  simp only [ReadCloser.Decodes, hw]
  cases lib.read (bytesAt b') b'.length with
  | none => simp
  | some pk => simp

/-- **C84**: after `Close` the file is not open any more, whether or not `Close` returns an error.  No other file has been
closed.  `Decode` returns an error then and leaves the model as it is, and `Close` returns an error. -/
theorem C84_close (hlib : lib.Careful) {r : ReadCloser} {b : Bool} {d' : Disk} (h : r.close os d = (b, d')) :
    d'.dir = d.dir ∧ d'.data = d.data ∧ (∀ f, OpenIn d' f ↔ OpenIn d f ∧ f ≠ r.f) ∧
    (∀ c m m' res, r.Decodes c o lib d' m m' res ↔ m' = m ∧ res = none) ∧ ∀ os', (r.close os' d').1 = false := by
  have e : d' = (osClose os d r.f).2 := by rw [ReadCloser.close] at h; rw [h]
  subst e
  obtain ⟨c1, c2⟩ := close_disk (os := os) (d := d) (f := r.f)
  have hno : ¬ OpenIn (osClose os d r.f).2 r.f := by rw [close_openIn]; simp
  refine ⟨c1, c2, fun f => close_openIn f, fun c m m' res => ?_, fun os' => ?_⟩
  · have hr : ∀ off n, osReadAt (osClose os d r.f).2 r.f off n = none := by
      intro off n
      simp only [osReadAt, Disk.reads]
      cases hx : (osClose os d r.f).2.files[r.f]? with
      | none => rfl
      | some x =>
        have : ¬ x.isOpen = true := fun h => hno ⟨x, hx, h⟩
        simp [this]
    have : lib.read (osReadAt (osClose os d r.f).2 r.f) r.size = none := by
      rw [hlib.within _ (fun _ _ => none) _ (fun off n _ => hr off n), hlib.errors]
    simp only [ReadCloser.Decodes, this]
  · generalize (osClose os d r.f).2 = d' at hno
    simp only [ReadCloser.close, osClose]
    cases hx : d'.files[r.f]? with
    | none => rfl
    | some x =>
      have : ¬ x.isOpen = true := fun h => hno ⟨x, hx, h⟩
      simp [this]

theorem create_spec (hd : d.Sound) {w : WriteCloser} {d1 : Disk} (h : createWriter os d name = (some w, d1)) :
    w.f = d.files.length ∧ ∃ i, d1.lookup name = some i ∧ d1.data[i]? = some [] ∧ d1.files[w.f]? = some ⟨i, 0, true⟩ ∧
      (∀ f, OpenIn d1 f ↔ OpenIn d f ∨ f = w.f) ∧
      (∀ other, other ≠ name → d1.lookup other = d.lookup other ∧
        ∀ j, d.lookup other = some j → j ≠ i ∧ d1.data[j]? = d.data[j]?) ∧ d1.Sound := by
  simp only [createWriter, osCreate] at h
  cases hc : os.creates name with
  | false => rw [hc] at h; simp at h
  | true =>
    rw [hc] at h
    simp only [if_true] at h
    cases hl : d.lookup name with
    | none =>
      rw [hl] at h
      simp only at h
      injection h with h1 h2
      injection h1 with h1
      subst h1 h2
      refine ⟨rfl, d.data.length, ?_, ?_, ?_, fun f => ?_, fun other ho => ⟨?_, fun j hj => ?_⟩, ⟨?_, ?_⟩⟩
      · refine disk_lookup_of (before := d.dir) (after := []) rfl ?_
        exact disk_lookup_none.1 hl
      · simp [Disk.addFile]
      · simp [Disk.addFile]
      · exact openIn_add (d := { d with dir := d.dir ++ [(name, d.data.length)], data := d.data ++ [[]] }) f
      · simp [Disk.lookup, Disk.addFile, List.find?_append, ho.symm]
      · have := hd.dir _ (disk_lookup_mem hj)
        simp only at this
        refine ⟨by omega, ?_⟩
        simp only [Disk.addFile]
        rw [List.getElem?_append_left this]
      · intro x hx
        simp only [Disk.addFile, List.mem_append, List.mem_singleton, List.length_append, List.length_singleton] at hx ⊢
        rcases hx with hx | rfl
        · have := hd.dir x hx
          omega
        · simp
      · intro x hx y hy e
        simp only [Disk.addFile, List.mem_append, List.mem_singleton] at hx hy
        rcases hx with hx | rfl <;> rcases hy with hy | rfl
        · exact hd.single x hx y hy e
        · have := hd.dir x hx
          simp only at e
          omega
        · have := hd.dir y hy
          simp only at e
          omega
        · rfl
    | some i =>
      rw [hl] at h
      simp only at h
      injection h with h1 h2
      injection h1 with h1
      subst h1 h2
      have hi := hd.dir _ (disk_lookup_mem hl)
      simp only at hi
      refine ⟨rfl, i, hl, ?_, ?_, fun f => ?_, fun other ho => ⟨rfl, fun j hj => ?_⟩, ⟨?_, hd.single⟩⟩
      · simp [Disk.addFile, hi]
      · simp [Disk.addFile]
      · exact openIn_add (d := { d with data := d.data.set i [] }) f
      · have hne : j ≠ i := by
          rintro rfl
          exact ho (hd.single _ (disk_lookup_mem hj) _ (disk_lookup_mem hl) rfl)
        refine ⟨hne, ?_⟩
        simp only [Disk.addFile]
        rw [List.getElem?_set_ne (fun e => hne e.symm)]
      · intro x hx
        simp only [Disk.addFile, List.length_set]
        exact hd.dir x hx

theorem mapM_mem (lib : PkgLib) (d : Disk) : ∀ as : List Attachment,
    (as.map fun a => Content.mem a.stream).mapM (Content.read lib d) = some (as.map (·.stream))
  | [] => rfl
  | a :: as => by
    rw [List.map_cons, List.mapM_cons, mapM_mem lib d as]
    rfl

theorem zip_streams : ∀ as : List Attachment,
    List.zipWith (fun (a : Attachment) b => { a with stream := b }) as (as.map (·.stream)) = as
  | [] => rfl
  | a :: as => by
    rw [List.map_cons, List.zipWith_cons_cons, zip_streams as]

variable {m : Model} {order1 : List Str} {order2 : List (Str × ChildModel)}

/-- **C84**: saving.  If `CreateWriter` and `Encode` return no error, then the file of that name holds exactly what the library
writes for the package of the model, whatever the file was before.  It does so as soon as `Encode` has returned, and still after
`Close`.  Whether or not there is an error: no other file has changed, and after `Close` the same files are open as before
`CreateWriter`. -/
theorem C84_save (hd : d.Sound) {w : WriteCloser} {d1 : Disk} (h1 : createWriter os d name = (some w, d1)) {ok : Bool} {d2 : Disk}
    (h2 : w.encode os o lib prec d1 m (m.attachments.map fun a => .mem a.stream) order1 order2 = (ok, d2)) {b : Bool} {d3 : Disk}
    (h3 : w.close os d2 = (b, d3)) :
    (ok = true → ∃ out, encodePkg o prec m order1 order2 = some out ∧ FileIs d2 name (lib.write out).flatten ∧
      FileIs d3 name (lib.write out).flatten) ∧
    (∀ other c, other ≠ name → (FileIs d3 other c ↔ FileIs d other c)) ∧ (∀ f, OpenIn d3 f ↔ OpenIn d f) ∧ d3.Sound := by
  obtain ⟨hw, i, k1, k2, k3, k4, k5, k6⟩ := create_spec hd h1
  have e : d3 = (osClose os d2 w.f).2 := by rw [WriteCloser.close] at h3; rw [h3]
  subst e
  obtain ⟨c1, c2⟩ := close_disk (os := os) (d := d2) (f := w.f)
  have key : ∃ ps b', writeAll os w.f ps d1 = (b', d2) ∧
      (ok = true → b' = true ∧ ∃ out, encodePkg o prec m order1 order2 = some out ∧ ps = lib.write out) := by
    simp only [WriteCloser.encode, mapM_mem, zip_streams] at h2
    cases he : encodePkg o prec m order1 order2 with
    | none =>
      rw [he] at h2
      simp only at h2
      injection h2 with e1 e2
      subst e1
      exact ⟨lib.broken m, (writeAll os w.f (lib.broken m) d1).1, by rw [← e2], fun h => by cases h⟩
    | some out =>
      rw [he] at h2
      simp only at h2
      exact ⟨lib.write out, ok, h2, fun h => ⟨h, out, rfl, rfl⟩⟩
  obtain ⟨ps, b', hps, hok⟩ := key
  obtain ⟨f1, f2, f3, f4⟩ := writeAll_frame ps k3 b' d2 hps
  simp only at f2
  have look : ∀ n, d2.lookup n = d1.lookup n := fun n => by simp only [Disk.lookup, f1]
  have look3 : ∀ n, (osClose os d2 w.f).2.lookup n = d1.lookup n := fun n => by simp only [Disk.lookup, c1, f1]
  refine ⟨fun h => ?_, fun other c ho => ?_, fun f => ?_,
    ⟨by rw [c1, c2, f1, f4]; exact k6.dir, by rw [c1, f1]; exact k6.single⟩⟩
  · obtain ⟨rfl, out, ho, rfl⟩ := hok h
    have := writeAll_ok (lib.write out) k3 rfl k2 rfl d2 hps
    simp only [List.nil_append] at this
    refine ⟨out, ho, fileIs_iff.2 ⟨i, by rw [look, k1], this⟩, fileIs_iff.2 ⟨i, by rw [look3, k1], by rw [c2]; exact this⟩⟩
  · obtain ⟨l1, l2⟩ := k5 other ho
    rw [fileIs_iff, fileIs_iff, look3, l1]
    constructor
    · rintro ⟨j, hj, hdj⟩
      obtain ⟨n1, n2⟩ := l2 j hj
      exact ⟨j, hj, by rw [← n2, ← f2 j n1, ← c2]; exact hdj⟩
    · rintro ⟨j, hj, hdj⟩
      obtain ⟨n1, n2⟩ := l2 j hj
      exact ⟨j, hj, by rw [c2, f2 j n1, n2]; exact hdj⟩
  · rw [close_openIn, f3, k4]
    constructor
    · rintro ⟨h | h, h'⟩
      · exact h
      · exact absurd h h'
    · intro h
      refine ⟨.inl h, ?_⟩
      rintro rfl
      rw [hw] at h
      obtain ⟨x, hx, -⟩ := h
      rw [List.getElem?_eq_none (Nat.le_refl _)] at hx
      cases hx

theorem mapM_forall {α β : Type} {f : α → Option β} : ∀ {l : List α} {bs : List β}, l.mapM f = some bs →
    List.Forall₂ (fun x b => f x = some b) l bs
  | [], bs, h => by
    simp only [List.mapM_nil, Option.pure_def, Option.some.injEq] at h
    subst h
    exact .nil
  | x :: l, bs, h => by
    simp only [List.mapM_cons, Option.pure_def, Option.bind_eq_bind, Option.bind_eq_some_iff, Option.some.injEq] at h
    obtain ⟨b, hb, bs', hbs, rfl⟩ := h
    exact .cons hb (mapM_forall hbs)

/-- The bytes of a stream: those in memory, or those of the first part of that name, which can be read to its end. -/
def StreamIs (lib : PkgLib) (d : Disk) : Content → Str → Prop
  | .mem b, b' => b' = b
  | .part r name, b => ∃ pk before f after, lib.read (osReadAt d r.f) r.size = some pk ∧ pk.files = before ++ f :: after ∧
      (∀ x ∈ before, x.name ≠ name) ∧ f.name = name ∧ f.content = some (b, .eof)

theorem streamIs_read {c : Content} {b : Str} (h : c.read lib d = some b) : StreamIs lib d c b := by
  cases c with
  | mem x => exact (Option.some.inj h).symm
  | part r name =>
    simp only [Content.read, Option.bind_eq_some_iff] at h
    obtain ⟨pk, h1, f, h2, h3⟩ := h
    obtain ⟨h4, before, after, h5, h6⟩ := List.find?_eq_some_iff_append.1 h2
    refine ⟨pk, before, f, after, h1, h5, fun x hx => by simpa using h6 x hx, by simpa using h4, ?_⟩
    unfold InFile.copy at h3
    split at h3
    · rename_i h7
      rw [h7, Option.some.inj h3]
    · cases h3

/-- **C84** (encoder.go:207-218): if `Encode` returns no error, then every stream could be read to its end, and the file holds the
package with exactly these bytes. -/
theorem C84_streams (hd : d.Sound) {w : WriteCloser} {d1 : Disk} (h1 : createWriter os d name = (some w, d1)) {cs : List Content}
    {d2 : Disk} (h2 : w.encode os o lib prec d1 m cs order1 order2 = (true, d2)) :
    ∃ bs out, List.Forall₂ (StreamIs lib d1) cs bs ∧
      encodePkg o prec { m with attachments := List.zipWith (fun a b => { a with stream := b }) m.attachments bs } order1 order2 =
        some out ∧ FileIs d2 name (lib.write out).flatten := by
  obtain ⟨hw, i, k1, k2, k3, -, -, -⟩ := create_spec hd h1
  rw [WriteCloser.encode] at h2
  cases hbs : cs.mapM (Content.read lib d1) with
  | none => rw [hbs] at h2; simp at h2
  | some bs =>
    rw [hbs] at h2
    simp only at h2
    cases he : encodePkg o prec { m with attachments := List.zipWith (fun a b => { a with stream := b }) m.attachments bs }
        order1 order2 with
    | none => rw [he] at h2; simp at h2
    | some out =>
      rw [he] at h2
      simp only at h2
      obtain ⟨f1, -, -, -⟩ := writeAll_frame (lib.write out) k3 true d2 h2
      have := writeAll_ok (lib.write out) k3 rfl k2 rfl d2 h2
      simp only [List.nil_append] at this
      exact ⟨bs, out, (mapM_forall hbs).imp fun _ _ => streamIs_read, he, fileIs_iff.2 ⟨i, by simp only [Disk.lookup, f1]; exact k1, this⟩⟩

/-- **C84**: a model that has been read from a file can be saved to the same file, also while the file is still open for reading: the
attachments do not have to be read again from the file, which is empty by then. -/
theorem C84_resave (hd : d.Sound) {r : ReadCloser} {d1 : Disk} (h1 : openReader os d name = (some r, d1)) {c : PkgCfg}
    {res : Option PkgResult} (_hm : r.Decodes c o lib d1 .zero m res) {w : WriteCloser} {d2 : Disk}
    (h2 : createWriter os d1 name = (some w, d2)) {d3 : Disk}
    (h3 : w.encode os o lib prec d2 m (m.attachments.map (copyContent r)) order1 order2 = (true, d3)) :
    ∃ out, encodePkg o prec m order1 order2 = some out ∧ FileIs d3 name (lib.write out).flatten := by
  obtain ⟨e1, e2, -, -⟩ := C84_open hd h1
  have hd1 : d1.Sound := ⟨by rw [e1, e2]; exact hd.dir, by rw [e1]; exact hd.single⟩
  cases hc : w.close os d3 with
  | mk b d4 =>
    obtain ⟨out, g1, g2, -⟩ := (C84_save hd1 h2 h3 hc).1 rfl
    exact ⟨out, g1, g2⟩

/-- **C84**: what has been saved to a file can be read from it. -/
theorem C84_roundtrip_partial (hd : d.Sound) (hlib : lib.Careful) {w : WriteCloser} {d1 : Disk} (h1 : createWriter os d name = (some w, d1))
    {d2 : Disk} (h2 : w.encode os o lib prec d1 m (m.attachments.map fun a => .mem a.stream) order1 order2 = (true, d2)) {b : Bool}
    {d3 : Disk} (h3 : w.close os d2 = (b, d3)) {r : ReadCloser} {d4 : Disk} (h4 : openReader os d3 name = (some r, d4))
    (hf : ∀ out, encodePkg o prec m order1 order2 = some out → lib.Faithful out) (c : PkgCfg) (ho : o.Distinct) (hp : Packed c.env o m)
    (hw : Writable c.env m) (hk : ModelOk prec m) (hc : ∀ x ∈ m.childs, ChildWritable c.env m.extensions x.2 ∧ ChildOk prec x.2)
    (p1 : order1.Perm (m.childs.map (·.1))) (p2 : order2.Perm m.childs) :
    (∀ m' res, r.Decodes c o lib d4 .zero m' res → res = some (.root .ok) ∧ NearPackage prec m m') ∧
    ∃ m', r.Decodes c o lib d4 .zero m' (some (.root .ok)) := by
  obtain ⟨out, he, -, hfile⟩ := (C84_save hd h1 h2 h3).1 rfl
  have hs3 := (C84_save hd h1 h2 h3).2.2.2
  obtain ⟨again, hre, hread⟩ := hf out he
  obtain ⟨g1, g2⟩ := C55_package_partial c o prec m order1 order2 out again ho hp hw hk hc p1 p2 he hre
  have hdec : ∀ m' res, r.Decodes c o lib d4 .zero m' res ↔ ∃ x, res = some x ∧ DecodesBg c o again .zero m' x := by
    intro m' res
    rw [C84_read hs3 hlib h4 hfile rfl (fun x hx => ?_)]
    · constructor
      · rintro (⟨h, -⟩ | ⟨pk, x, h, h', h''⟩)
        · rw [hread] at h; cases h
        · rw [hread] at h
          injection h with h
          subst h
          exact ⟨x, h', h''⟩
      · rintro ⟨x, h', h''⟩
        exact .inr ⟨again, x, hread, h', h''⟩
    · obtain ⟨-, -, -, k⟩ := C84_open hs3 h4
      obtain ⟨-, k2, b', hb', k3, k4⟩ := k r rfl
      refine ⟨[], ?_⟩
      have e : b' = (lib.write out).flatten := by
        obtain ⟨i, k1, k2⟩ := fileIs_iff.1 hfile
        obtain ⟨i', k3, k4⟩ := fileIs_iff.1 hb'
        rw [k1] at k3
        injection k3 with k3
        subst k3
        rw [k2] at k4
        injection k4 with k4
        exact k4.symm
      have hr := k4 0 b'.length
      obtain ⟨y, hy, hyo⟩ := (k2 r.f).2 (.inr rfl)
      rw [hx] at hy
      injection hy with hy
      subst hy
      have h0 := k4 0 (b'.length + 1)
      simp only [osReadAt, Disk.reads, hx, hyo, if_true, bytesAt] at hr h0
      cases hdx : d4.data[x.inode]? with
      | none => rw [hdx] at hr; simp at hr
      | some z =>
        rw [hdx] at hr h0
        simp only [Nat.zero_add, Nat.le_refl, if_true, List.drop_zero, List.take_length] at hr h0
        rw [List.append_nil, ← e]
        by_cases h5 : b'.length ≤ z.length
        · rw [if_pos h5] at hr
          have h6 : ¬ b'.length + 1 ≤ z.length := by
            intro h6
            rw [if_pos h6, if_neg (by omega)] at h0
            cases h0
          have : b'.length = z.length := by omega
          rw [this, List.take_length] at hr
          exact hr
        · rw [if_neg h5] at hr; cases hr
  constructor
  · intro m' res h
    obtain ⟨x, rfl, hx⟩ := (hdec m' res).1 h
    obtain ⟨rfl, hn⟩ := g1 m' x hx
    exact ⟨rfl, hn⟩
  · obtain ⟨m', h⟩ := g2
    exact ⟨m', (hdec m' _).2 ⟨_, rfl, h⟩⟩

/-- **C84**: if `CreateWriter` returns an error, then nothing has changed. -/
theorem C84_kept_partial {d' : Disk} (h : createWriter os d name = (none, d')) : d' = d ∧ os.creates name = false := by
  simp only [createWriter, osCreate] at h
  cases hc : os.creates name with
  | false =>
    rw [hc] at h
    simp only [Bool.false_eq_true, if_false] at h
    injection h with _ h
    exact ⟨h.symm, rfl⟩
  | true =>
    rw [hc] at h
    simp only [if_true] at h
    cases hl : d.lookup name with
    | none => rw [hl] at h; simp at h
    | some i => rw [hl] at h; simp at h

/-! ## Examples -/

section Examples

def c84Os : Os := ⟨fun _ => true, fun _ => true, true, true, fun _ p => p.length⟩

/-- Two files, one of which is open. -/
def c84Disk : Disk := ⟨[(b!"a.3mf", 0), (b!"b.3mf", 1)], [b!"a longer file", b!"PKx"], [⟨1, 0, true⟩]⟩

def c84Out : OutPkg := (encodePkg c50Opc 3 c55Model [b!"/c.model"] c55Model.childs).getD ⟨[], []⟩

/-- A library that reads and writes one package only. -/
def c84Lib : PkgLib where
  read r n := if n = 3 ∧ r 0 3 = some b!"PKx" then some (reopen c84Out) else none
  write _ := [b!"PK", b!"x"]
  broken _ := [b!"P"]

theorem c84_sound : c84Disk.Sound := ⟨by decide +kernel, by decide +kernel⟩

theorem c84_careful : c84Lib.Careful := by
  refine ⟨fun r r' size h => ?_, fun size => by simp [c84Lib]⟩
  simp only [c84Lib]
  by_cases hs : size = 3
  · rw [h 0 3 (by omega)]
  · rw [if_neg (fun h => hs h.1), if_neg (fun h => hs h.1)]

theorem c84_faithful (out : OutPkg) (h : encodePkg c50Opc 3 c55Model [b!"/c.model"] c55Model.childs = some out) : c84Lib.Faithful out := by
  have e : c84Out = out := by rw [c84Out, h]; rfl
  refine ⟨reopen out, reopen_spec out, ?_⟩
  rw [← e]
  rfl

/-- The model of C55 is saved to a file that exists, and is read from it. -/
example (mem : Str → Nat → Str → Str) (strict : Bool) : ∃ w d1 d2 d3 r d4,
    createWriter c84Os c84Disk b!"a.3mf" = (some w, d1) ∧
    w.encode c84Os c50Opc c84Lib 3 d1 c55Model (c55Model.attachments.map fun a => .mem a.stream) [b!"/c.model"] c55Model.childs = (true, d2) ∧
    w.close c84Os d2 = (true, d3) ∧ openReader c84Os d3 b!"a.3mf" = (some r, d4) ∧ FileIs d3 b!"a.3mf" b!"PKx" ∧
    (∀ m' res, r.Decodes ⟨exEnv, strict, mem⟩ c50Opc c84Lib d4 .zero m' res → res = some (.root .ok) ∧ NearPackage 3 c55Model m') := by
  have h1 : createWriter c84Os c84Disk b!"a.3mf" = (some ⟨1⟩, (createWriter c84Os c84Disk b!"a.3mf").2) := by decide +kernel
  have h : (encodePkg c50Opc 3 c55Model [b!"/c.model"] c55Model.childs).isSome = true := by decide +kernel
  obtain ⟨out, hout⟩ := Option.isSome_iff_exists.mp h
  have h2 : (⟨1⟩ : WriteCloser).encode c84Os c50Opc c84Lib 3 (createWriter c84Os c84Disk b!"a.3mf").2 c55Model
      (c55Model.attachments.map fun a => .mem a.stream) [b!"/c.model"] c55Model.childs =
      (true, ⟨c84Disk.dir, [b!"PKx", b!"PKx"], [⟨1, 0, true⟩, ⟨0, 3, true⟩]⟩) := by
    simp only [WriteCloser.encode, mapM_mem, zip_streams]
    rw [show ({ c55Model with attachments := c55Model.attachments } : Model) = c55Model from rfl, hout]
    show writeAll c84Os 1 [b!"PK", b!"x"] (createWriter c84Os c84Disk b!"a.3mf").2 = _
    decide +kernel
  have h3 : (⟨1⟩ : WriteCloser).close c84Os ⟨c84Disk.dir, [b!"PKx", b!"PKx"], [⟨1, 0, true⟩, ⟨0, 3, true⟩]⟩ =
      (true, ⟨c84Disk.dir, [b!"PKx", b!"PKx"], [⟨1, 0, true⟩, ⟨0, 3, false⟩]⟩) := by decide +kernel
  have h4 : openReader c84Os ⟨c84Disk.dir, [b!"PKx", b!"PKx"], [⟨1, 0, true⟩, ⟨0, 3, false⟩]⟩ b!"a.3mf" =
      (some ⟨2, 3⟩, ⟨c84Disk.dir, [b!"PKx", b!"PKx"], [⟨1, 0, true⟩, ⟨0, 3, false⟩, ⟨0, 0, true⟩]⟩) := by decide +kernel
  refine ⟨_, _, _, _, _, _, h1, h2, h3, h4, ⟨[], 0, [(b!"b.3mf", 1)], rfl, by simp, rfl⟩, ?_⟩
  exact (C84_roundtrip_partial c84_sound c84_careful h1 h2 h3 h4 c84_faithful ⟨exEnv, strict, mem⟩ (fun _ _ _ h => by simpa [c50Opc] using h)
    c55_packed c55_writable ⟨(exOk 3).assets, (exOk 3).objects, (exOk 3).any⟩ c55_child (by decide) (List.Perm.refl _)).1

/-- Two attachments with the same name. -/
def c84Model : Model := { Model.zero with attachments := [⟨b!"1", b!"/x", b!"t"⟩, ⟨b!"2", b!"/x", b!"t"⟩] }

/-- One attachment. -/
def c84One : Model := { Model.zero with attachments := [⟨[], b!"/x", b!"t"⟩] }

/-- **C84** is false of a file that is replaced by a model that cannot be saved: `CreateWriter` removes the content of the file before it
is known whether there is anything to replace it (encoder.go:118-119). -/
theorem C84_kept_false : ∃ w d1 d2 d3, createWriter c84Os c84Disk b!"a.3mf" = (some w, d1) ∧
    w.encode c84Os c50Opc c84Lib 3 d1 c84Model (c84Model.attachments.map fun a => .mem a.stream) [] [] = (false, d2) ∧
    w.close c84Os d2 = (true, d3) ∧ FileIs c84Disk b!"a.3mf" b!"a longer file" ∧ FileIs d3 b!"a.3mf" b!"P" := by
  refine ⟨⟨1⟩, ⟨c84Disk.dir, [[], b!"PKx"], [⟨1, 0, true⟩, ⟨0, 0, true⟩]⟩, ⟨c84Disk.dir, [b!"P", b!"PKx"], [⟨1, 0, true⟩, ⟨0, 1, true⟩]⟩,
    ⟨c84Disk.dir, [b!"P", b!"PKx"], [⟨1, 0, true⟩, ⟨0, 1, false⟩]⟩, by decide +kernel, by decide +kernel, by decide +kernel,
    ⟨[], 0, [(b!"b.3mf", 1)], rfl, by simp, rfl⟩, ⟨[], 0, [(b!"b.3mf", 1)], rfl, by simp, rfl⟩⟩

/-- The stream of an attachment is a part of a package in another file, which is open: it is read, and the model is saved. -/
example : ∃ bs out, List.Forall₂ (StreamIs c84Lib (createWriter c84Os c84Disk b!"a.3mf").2)
      [.part ⟨0, 3⟩ b!"/c.model"] bs ∧
    encodePkg c50Opc 3 { c84One with attachments := List.zipWith (fun a b => { a with stream := b }) c84One.attachments bs } [] [] = some out ∧
    FileIs ((⟨1⟩ : WriteCloser).encode c84Os c50Opc c84Lib 3 (createWriter c84Os c84Disk b!"a.3mf").2 c84One
      [.part ⟨0, 3⟩ b!"/c.model"] [] []).2 b!"a.3mf" (c84Lib.write out).flatten :=
  C84_streams c84_sound (w := ⟨1⟩) (by decide +kernel) (Prod.ext (by decide +kernel) rfl)

/-- If it is a part of the package in the file that is written, it cannot be read any more. -/
example : ((⟨1⟩ : WriteCloser).encode c84Os c50Opc c84Lib 3 (createWriter c84Os c84Disk b!"b.3mf").2 c84One
    [.part ⟨0, 3⟩ b!"/c.model"] [] []).1 = false := by decide +kernel

/-- A file is opened, renamed and appended to by others, and decoded; it is closed then. -/
example : ∃ r d1, openReader c84Os c84Disk b!"b.3mf" = (some r, d1) ∧
    (∀ c m' res, r.Decodes c c50Opc c84Lib ⟨[(b!"c.3mf", 1)], [[], b!"PKxyz"], d1.files⟩ .zero m' res ↔
      ∃ x, res = some x ∧ DecodesBg c c50Opc (reopen c84Out) .zero m' x) ∧
    OpenIn d1 1 ∧ ¬ OpenIn (r.close c84Os d1).2 1 ∧ OpenIn (r.close c84Os d1).2 0 := by
  have h1 : openReader c84Os c84Disk b!"b.3mf" = (some ⟨1, 3⟩, ⟨c84Disk.dir, c84Disk.data, [⟨1, 0, true⟩, ⟨1, 0, true⟩]⟩) := by
    decide +kernel
  refine ⟨_, _, h1, fun c m' res => ?_, ⟨_, rfl, rfl⟩, ?_, ⟨⟨1, 0, true⟩, by decide +kernel, rfl⟩⟩
  · have hr : c84Lib.read (bytesAt b!"PKx") (b!"PKx" : Str).length = some (reopen c84Out) := rfl
    rw [C84_read (b := b!"PKx") (d2 := ⟨[(b!"c.3mf", 1)], [[], b!"PKxyz"], [⟨1, 0, true⟩, ⟨1, 0, true⟩]⟩) c84_sound c84_careful h1 ⟨[(b!"a.3mf", 0)], 1, [], rfl, by decide +kernel, rfl⟩ rfl
      (fun x hx => by injection hx with hx; subst hx; exact ⟨b!"yz", rfl⟩), hr]
    simp
  · intro h
    exact ((C84_close (o := c50Opc) (os := c84Os) c84_careful (Prod.mk.eta.symm)).2.2.1 1).1 h |>.2 rfl

/-- `Stat` fails: there is an error, and nothing is open that was not open before. -/
example : (openReader { c84Os with stats := false } c84Disk b!"b.3mf").1 = none ∧
    OpenIn (openReader { c84Os with stats := false } c84Disk b!"b.3mf").2 0 ∧
    ¬ OpenIn (openReader { c84Os with stats := false } c84Disk b!"b.3mf").2 1 := by
  refine ⟨by decide +kernel, ⟨⟨1, 0, true⟩, by decide +kernel, rfl⟩, ?_⟩
  rintro ⟨x, hx, ho⟩
  have : (openReader { c84Os with stats := false } c84Disk b!"b.3mf").2.files[1]? = some ⟨1, 0, false⟩ := by decide +kernel
  rw [this] at hx
  injection hx with hx
  subst hx
  cases ho

end Examples

/-! ## Writing at a position -/

/-- **C84**, of the operating system: a write changes the bytes in its place and no others, and a gap before it has zeros. -/
theorem C84_put (b : Str) (pos : Nat) (p : Str) (i : Nat) : (putAt b pos p)[i]? =
    if pos ≤ i ∧ i < pos + p.length then p[i - pos]?
    else if i < b.length then b[i]? else if i < pos then some 0 else none := by
  have hl : (b.take pos ++ List.replicate (pos - b.length) (0 : UInt8)).length = pos := by
    simp only [List.length_append, List.length_take, List.length_replicate]; omega
  unfold putAt
  by_cases h1 : i < pos
  · rw [List.append_assoc, List.getElem?_append_left (by rw [hl]; exact h1), if_neg (by omega)]
    by_cases h2 : i < b.length
    · rw [if_pos h2, List.getElem?_append_left (by simp only [List.length_take]; omega), List.getElem?_take_of_lt h1]
    · rw [if_neg h2, if_pos h1, List.getElem?_append_right (by simp only [List.length_take]; omega), List.getElem?_replicate,
        if_pos (by simp only [List.length_take]; omega)]
  · by_cases h2 : i < pos + p.length
    · rw [List.append_assoc, List.getElem?_append_right (by rw [hl]; omega), hl, if_pos ⟨by omega, h2⟩,
        List.getElem?_append_left (by omega)]
    · rw [List.getElem?_append_right (by rw [List.length_append, hl]; omega), List.length_append, hl, if_neg (by omega), List.getElem?_drop,
        show pos + p.length + (i - (pos + p.length)) = i by omega]
      by_cases h3 : i < b.length
      · rw [if_pos h3]
      · rw [if_neg h3, if_neg (by omega), List.getElem?_eq_none (by omega)]

example : putAt b!"abcdef" 2 b!"XY" = b!"abXYef" := by decide +kernel

end Go3mf
