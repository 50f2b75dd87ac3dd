import Verif.Lemmas.AtrDir
import Verif.Props.Atr

/-! C37: directories of disk images. -/

namespace Asap.Props
open Asap Asap.Atr Asap.Spec.Atr

/-- C37: whatever is in the image, and however often it is called, `NextEntry` ends, never accesses anything outside of the sector buffer, and gives correct names only. -/
theorem C37_names (d : Dir) (hv : d.Valid) : ∃ r d', Dir.nextEntry 65 d = .ok (r, d') ∧ d'.Valid ∧ ∀ name ∈ r, FileName name ∧ name.length ≤ 12 := by
  obtain ⟨r, d', h1, h2, _, h3⟩ := nextEntry_valid 65 d hv (by have := hv.low; omega)
  refine ⟨r, d', h1, h2, fun name hn => ⟨(h3 name hn).1, ?_⟩⟩
  rcases (h3 name hn).1 with ⟨base, rfl, _, h, _⟩ | ⟨base, ext, rfl, h, _, h', _⟩
  · omega
  · simp; omega

/-- All the names `NextEntry` gives. -/
def listAll : Nat → Dir → M (List (List Nat))
  | 0, _ => .error .fuel
  | fuel + 1, d => do
    let r ← Dir.nextEntry 65 d
    match r.1 with
    | none => .ok []
    | some name => do
      let rest ← listAll fuel r.2
      .ok (name :: rest)

theorem filterMap_skip {α β : Type} {f : α → Option β} {l : List α} (h : ∀ a ∈ l, f a = none) : l.filterMap f = [] := by
  rw [List.filterMap_eq_nil_iff]; exact h

theorem listAll_eq (fuel : Nat) : ∀ (d : Dir) (k : Nat), d.Sync k → 65 - k ≤ fuel →
    listAll fuel d = .ok ((entries d.disk.image' d.firstSector k).filterMap (listed d.disk.bytesPerSector)) := by
  induction fuel with
  | zero => intro d k h hf; have := h.valid.high; have := h.next; omega
  | succ fuel ih =>
    intro d k h hf
    obtain ⟨r, d', h1, h2, h3, h4, h5, h6⟩ := nextEntry_sync 65 d k h (by omega)
    unfold listAll
    rw [h1]
    simp only [bind, Except.bind]
    cases r with
    | none => rw [filterMap_skip (h5 rfl)]
    | some name =>
      obtain ⟨j, e, skipped, g1, g2, g3, g4, g5, g6, _⟩ := h6 name rfl
      simp only
      rw [ih d' (j + 1) g1 (by omega), g4, h3, h4, List.filterMap_append, filterMap_skip g5, List.filterMap_cons, g6]
      rfl

theorem sync_root {d : Dir} (disk : Disk) (hd : disk.Ok) (hl : d.sector.length = 128) (hb : AllBytes d.sector) : (d.openRoot disk).Sync 0 :=
  ⟨⟨hd, hl, hb, by show -1 ≤ (-1 : Int); omega, by show (-1 : Int) ≤ 63; omega⟩, rfl, fun h => absurd rfl h⟩

theorem sync_sub {d source d' : Dir} (hd : source.disk.Ok) (hl : d.sector.length = 128) (hb : AllBytes d.sector) (h : d.openSub source = .ok d') :
    d'.Sync 0 ∧ d'.disk = source.disk ∧ source.entryFirstSector = .ok d'.firstSector ∧ d'.sector = d.sector := by
  unfold Dir.openSub at h
  cases hf : source.entryFirstSector with
  | error e => rw [hf] at h; simp [bind, Except.bind] at h
  | ok first =>
    rw [hf] at h
    simp only [bind, Except.bind, Except.ok.injEq] at h
    subst h
    exact ⟨⟨⟨hd, hl, hb, by show -1 ≤ (-1 : Int); omega, by show (-1 : Int) ≤ 63; omega⟩, rfl, fun h => absurd rfl h⟩, rfl, rfl, rfl⟩

/-- C37: the names given for the root directory are those of the known entries, in their order, up to the end of the directory. -/
theorem C37_root (image : List Nat) (disk : Disk) (hb : AllBytes image) (hopen : openDisk image = .ok (some disk)) (d : Dir) (hl : d.sector.length = 128) (hs : AllBytes d.sector) :
    listAll 65 (d.openRoot disk) = .ok (names disk.image' 361) :=
  listAll_eq 65 _ 0 (sync_root disk (opened_ok hb hopen) hl hs) (by omega)

/-- C37: the same of a subdirectory. -/
theorem C37_subdirectory (d source d' : Dir) (hd : source.disk.Ok) (hl : d.sector.length = 128) (hb : AllBytes d.sector) (h : d.openSub source = .ok d') :
    listAll 65 d' = .ok (names source.disk.image' d'.firstSector) := by
  obtain ⟨h1, h2, _⟩ := sync_sub hd hl hb h
  rw [listAll_eq 65 d' 0 h1 (by omega), h2]
  rfl

/-! ## The recursive lister -/

/-- Number of steps for an entry. -/
def entryCost (i : Image) (inside : Nat → Nat) (e : List Nat) : Nat :=
  match listed i.sectorSize e with
  | none => 0
  | some _ => if entryType e = 0x10 then 1 + inside (entryStart e) else 1

/-- Number of steps for a directory. -/
def cost (i : Image) : Nat → Nat → Nat → Nat
  | 0, first, k => 1 + ((entries i first k).map (entryCost i fun _ => 0)).sum
  | depth + 1, first, k => 1 + ((entries i first k).map (entryCost i fun start => cost i depth start 0)).sum

/-- What is in a directory. -/
def inside (i : Image) (depth : Nat) (start : Nat) (path : List Nat) : List (List Nat) :=
  match depth with
  | 0 => []
  | depth + 1 => files i depth start 0 path

/-- Number of steps for a directory in another one. -/
def insideCost (i : Image) (depth : Nat) (start : Nat) : Nat :=
  match depth with
  | 0 => 0
  | depth + 1 => cost i depth start 0

theorem files_eq (i : Image) (depth first k : Nat) (path : List Nat) : files i depth first k path = (entries i first k).flatMap (pathsOf i (inside i depth) path) := by
  cases depth <;> rfl

theorem cost_eq (i : Image) (depth first k : Nat) : cost i depth first k = 1 + ((entries i first k).map (entryCost i (insideCost i depth))).sum := by
  cases depth <;> rfl

theorem flatMap_skip {α β : Type} {f : α → List β} {l : List α} (h : ∀ a ∈ l, f a = []) : l.flatMap f = [] := by
  rw [List.flatMap_eq_nil_iff]; exact h

theorem pathsOf_none {i : Image} {f : Nat → List Nat → List (List Nat)} {path e : List Nat} (h : listed i.sectorSize e = none) : pathsOf i f path e = [] := by
  unfold pathsOf; rw [h]

theorem pathsOf_some {i : Image} {f : Nat → List Nat → List (List Nat)} {path e name : List Nat} (h : listed i.sectorSize e = some name) :
    pathsOf i f path e = if entryType e = 0x10 then f (entryStart e) (path ++ name ++ [47]) else [path ++ name] := by
  unfold pathsOf; rw [h]

theorem files_none {i : Image} {depth first k : Nat} {path : List Nat} (h : ∀ e ∈ entries i first k, listed i.sectorSize e = none) : files i depth first k path = [] := by
  rw [files_eq]
  exact flatMap_skip fun e he => pathsOf_none (h e he)

theorem files_split {i : Image} {depth first k j : Nat} {path e name : List Nat} {skipped : List (List Nat)} (h : entries i first k = skipped ++ e :: entries i first j)
    (hs : ∀ e ∈ skipped, listed i.sectorSize e = none) (he : listed i.sectorSize e = some name) :
    files i depth first k path = (if entryType e = 0x10 then inside i depth (entryStart e) (path ++ name ++ [47]) else [path ++ name]) ++ files i depth first j path := by
  rw [files_eq, files_eq, h, List.flatMap_append, List.flatMap_cons, flatMap_skip (l := skipped) fun e h => pathsOf_none (hs e h), pathsOf_some he]
  rfl

theorem cost_split {i : Image} {depth first k j : Nat} {e name : List Nat} {skipped : List (List Nat)} (h : entries i first k = skipped ++ e :: entries i first j)
    (he : listed i.sectorSize e = some name) : (if entryType e = 0x10 then 1 + insideCost i depth (entryStart e) else 1) + cost i depth first j ≤ cost i depth first k := by
  rw [cost_eq, cost_eq, h, List.map_append, List.sum_append, List.map_cons, List.sum_cons]
  have : entryCost i (insideCost i depth) e = if entryType e = 0x10 then 1 + insideCost i depth (entryStart e) else 1 := by
    unfold entryCost; rw [he]
  rw [this]
  omega

theorem cost_pos (i : Image) (depth first k : Nat) : 1 ≤ cost i depth first k := by rw [cost_eq]; omega

/-- The open directories, from the root to the given depth; the path of the last one, the paths of the files still to be listed and the number of steps. -/
inductive Stack (disk : Disk) (dirs : List Dir) : Nat → List Nat → List (List Nat) → Nat → Prop
  | root {d : Dir} {k : Nat} : dirs[0]? = some d → d.Sync k → d.disk = disk → Stack disk dirs 0 [] (files disk.image' 19 d.firstSector k []) (cost disk.image' 19 d.firstSector k)
  | sub {n c k : Nat} {path name : List Nat} {rest : List (List Nat)} {d : Dir} : Stack disk dirs n path rest c → FileName name → dirs[n + 1]? = some d → d.Sync k → d.disk = disk →
      Stack disk dirs (n + 1) (path ++ name ++ [47]) (files disk.image' (18 - n) d.firstSector k (path ++ name ++ [47]) ++ rest) (cost disk.image' (18 - n) d.firstSector k + c)

theorem Stack.congr {disk : Disk} {dirs dirs' : List Dir} {n c : Nat} {path : List Nat} {rest : List (List Nat)} (h : Stack disk dirs n path rest c) (he : ∀ i, i ≤ n → dirs'[i]? = dirs[i]?) :
    Stack disk dirs' n path rest c := by
  induction h with
  | root h1 h2 h3 => exact .root ((he 0 (Nat.le_refl _)).trans h1) h2 h3
  | sub _ h2 h3 h4 h5 ih => exact .sub (ih fun i hi => he i (by omega)) h2 ((he _ (Nat.le_refl _)).trans h3) h4 h5

/-- The last directory of the stack. -/
theorem Stack.top {disk : Disk} {dirs : List Dir} {n c : Nat} {path : List Nat} {rest : List (List Nat)} (h : Stack disk dirs n path rest c) (hn : n ≤ 19) :
    ∃ d k rest0 c0, dirs[n]? = some d ∧ d.Sync k ∧ d.disk = disk ∧ rest = files disk.image' (19 - n) d.firstSector k path ++ rest0 ∧ c = cost disk.image' (19 - n) d.firstSector k + c0 ∧
      (∀ (dirs' : List Dir) (d' : Dir) (k' : Nat), (∀ i, i < n → dirs'[i]? = dirs[i]?) → dirs'[n]? = some d' → d'.Sync k' → d'.disk = disk →
        Stack disk dirs' n path (files disk.image' (19 - n) d'.firstSector k' path ++ rest0) (cost disk.image' (19 - n) d'.firstSector k' + c0)) ∧
      (n = 0 → rest0 = []) ∧ (∀ m, n = m + 1 → ∃ name path0, path = path0 ++ name ++ [47] ∧ FileName name ∧ Stack disk dirs m path0 rest0 c0) := by
  cases h with
  | @root d k h1 h2 h3 =>
    refine ⟨d, k, [], 0, h1, h2, h3, by simp, rfl, fun dirs' d' k' _ g2 g3 g4 => ?_, fun _ => rfl, fun m hm => absurd hm (by omega)⟩
    have := Stack.root (disk := disk) g2 g3 g4
    simpa using this
  | @sub n c k path name rest d h1 h2 h3 h4 h5 =>
    refine ⟨d, k, rest, c, h3, h4, h5, by rw [show 19 - (n + 1) = 18 - n by omega], by rw [show 19 - (n + 1) = 18 - n by omega], fun dirs' d' k' g1 g2 g3 g4 => ?_, fun h => absurd h (by omega), fun m hm => ?_⟩
    · rw [show 19 - (n + 1) = 18 - n by omega]
      exact Stack.sub (h1.congr fun i hi => g1 i (by omega)) h2 g2 g3 g4
    · have : m = n := by omega
      subst this
      exact ⟨name, path, rfl, h2, h1⟩

theorem nameChar_slash {c : Nat} (h : NameChar c) : c ≠ 47 := by unfold NameChar at h; omega

theorem fileName_slash {name : List Nat} (h : FileName name) : ∀ c ∈ name, c ≠ 47 := by
  rcases h with ⟨base, rfl, _, _, h⟩ | ⟨base, ext, rfl, _, _, _, h1, h2⟩
  · exact fun c hc => nameChar_slash (h c hc)
  · intro c hc
    rcases List.mem_append.mp hc with hc | hc
    · exact nameChar_slash (h1 c hc)
    · rcases List.mem_cons.mp hc with rfl | hc
      · omega
      · exact nameChar_slash (h2 c hc)

/-- The path ends with a slash unless it is empty. -/
theorem Stack.slash {disk : Disk} {dirs : List Dir} {n c : Nat} {path : List Nat} {rest : List (List Nat)} (h : Stack disk dirs n path rest c) : path = [] ∨ ∃ p, path = p ++ [47] := by
  cases h with
  | root => left; rfl
  | @sub _ _ _ path name => right; exact ⟨path ++ name, rfl⟩

theorem parentPath_eq {path name : List Nat} (hp : path = [] ∨ ∃ p, path = p ++ [47]) (hn : ∀ c ∈ name, c ≠ 47) : parentPath (path ++ name ++ [47]) = path := by
  unfold parentPath
  rw [List.dropLast_concat, List.reverse_append, List.dropWhile_append_of_pos (by intro c hc; simpa using hn c (List.mem_reverse.mp hc))]
  rcases hp with rfl | ⟨p, rfl⟩
  · rfl
  · simp

/-- What is known of the lister between calls. -/
structure Listing (l : Lister) (disk : Disk) (rest : List (List Nat)) (c : Nat) : Prop where
  length : l.dirs.length = 20
  depth : l.depth ≤ 19
  ok : disk.Ok
  buffers : ∀ d ∈ l.dirs, d.sector.length = 128 ∧ AllBytes d.sector
  stack : Stack disk l.dirs l.depth l.path rest c

theorem set_buffers {dirs : List Dir} {n : Nat} {d : Dir} (h : ∀ d ∈ dirs, d.sector.length = 128 ∧ AllBytes d.sector) (hd : d.sector.length = 128 ∧ AllBytes d.sector) :
    ∀ x ∈ dirs.set n d, x.sector.length = 128 ∧ AllBytes x.sector := by
  intro x hx
  rcases List.mem_or_eq_of_mem_set hx with hx | rfl
  · exact h x hx
  · exact hd

theorem nextFile_listing (c : Nat) : ∀ (l : Lister) (disk : Disk) (rest : List (List Nat)) (fuel : Nat), Listing l disk rest c → c ≤ fuel →
    ∃ l', (rest = [] ∧ l.nextFile fuel = .ok (none, l')) ∨ ∃ path rest' c', rest = path :: rest' ∧ l.nextFile fuel = .ok (some path, l') ∧ Listing l' disk rest' c' ∧ c' < c := by
  induction c using Nat.strong_induction_on with
  | _ c ih =>
    intro l disk rest fuel h hf
    obtain ⟨d, k, rest0, c0, hd, hsync, hdisk, hrest, hc, hback, hzero, hpop⟩ := h.stack.top h.depth
    have hpos := cost_pos disk.image' (19 - l.depth) d.firstSector k
    obtain ⟨fuel, rfl⟩ : ∃ f, fuel = f + 1 := ⟨fuel - 1, by omega⟩
    obtain ⟨r, d', h1, h2, h3, h4, h5, h6⟩ := nextEntry_sync 65 d k hsync (by omega)
    have hlt : l.depth < l.dirs.length := by rw [h.length]; have := h.depth; omega
    have hset : (l.dirs.set l.depth d')[l.depth]? = some d' := List.getElem?_set_self hlt
    have hbelow : ∀ i, i < l.depth → (l.dirs.set l.depth d')[i]? = l.dirs[i]? := fun i hi => List.getElem?_set_ne (by omega)
    have hbuf := set_buffers (n := l.depth) h.buffers ⟨h2.length, h2.bytes⟩
    have hlen : (l.dirs.set l.depth d').length = 20 := by rw [List.length_set]; exact h.length
    have hsize : disk.image'.sectorSize = d.disk.bytesPerSector := by rw [hdisk]; rfl
    rw [hdisk] at h5 h6
    conv => enter [1, l']; unfold Lister.nextFile
    simp only [hd, h1, bind, Except.bind]
    cases r with
    | none =>
      have hnone := files_none (depth := 19 - l.depth) (path := l.path) (h5 rfl)
      rw [hnone, List.nil_append] at hrest
      by_cases h0 : l.depth = 0
      · simp only [if_pos h0]
        exact ⟨_, Or.inl ⟨by rw [hrest, hzero h0], rfl⟩⟩
      · obtain ⟨name, path0, hp, hname, hstack⟩ := hpop (l.depth - 1) (by omega)
        simp only [if_neg h0]
        have hl : Listing { l with dirs := l.dirs.set l.depth d', path := parentPath l.path, depth := l.depth - 1 } disk rest0 c0 := by
          refine ⟨hlen, by have := h.depth; show l.depth - 1 ≤ 19; omega, h.ok, hbuf, ?_⟩
          show Stack disk (l.dirs.set l.depth d') (l.depth - 1) (parentPath l.path) rest0 c0
          rw [hp, parentPath_eq hstack.slash (fileName_slash hname)]
          exact hstack.congr fun i hi => hbelow i (by omega)
        obtain ⟨l', hcase⟩ := ih c0 (by omega) _ disk rest0 fuel hl (by omega)
        refine ⟨l', ?_⟩
        rcases hcase with ⟨e1, e2⟩ | ⟨path, rest', c', e1, e2, e3, e4⟩
        · exact Or.inl ⟨by rw [hrest, e1], e2⟩
        · exact Or.inr ⟨path, rest', c', by rw [hrest, e1], e2, e3, by omega⟩
    | some name =>
      obtain ⟨j, e, skipped, g1, g2, g3, g4, g5, g6, g7, g8, g9⟩ := h6 name rfl
      have hfiles := files_split (depth := 19 - l.depth) (path := l.path) g4 g5 g6
      have hcost := cost_split (depth := 19 - l.depth) g4 g6
      have hdisk' : d'.disk = disk := h3.trans hdisk
      have hname : FileName name := by
        unfold listed at g6
        split at g6
        · exact entryName_name g6
        · simp at g6
      unfold Dir.isEntryDirectory
      simp only [g7, bind, Except.bind]
      have hst := hback _ d' (j + 1) hbelow hset g1 hdisk'
      rw [h4] at hst
      by_cases ht : entryType e = 0x10
      · simp only [ht, beq_self_eq_true, Bool.true_eq_false, if_false]
        rw [if_pos ht] at hfiles hcost
        by_cases hdeep : l.depth ≥ 19
        · simp only [if_pos hdeep]
          have e19 : 19 - l.depth = 0 := by omega
          rw [e19] at hfiles hcost hst hrest hc
          have hl : Listing { l with dirs := l.dirs.set l.depth d' } disk rest (cost disk.image' 0 d.firstSector (j + 1) + c0) := by
            refine ⟨hlen, h.depth, h.ok, hbuf, ?_⟩
            rw [hrest, hfiles]
            exact hst
          obtain ⟨l', hcase⟩ := ih _ (by omega) _ disk rest fuel hl (by omega)
          refine ⟨l', ?_⟩
          rcases hcase with hcase | ⟨path, rest', c', e1, e2, e3, e4⟩
          · exact Or.inl hcase
          · exact Or.inr ⟨path, rest', c', e1, e2, e3, by omega⟩
        · simp only [if_neg hdeep]
          have hlt' : l.depth + 1 < (l.dirs.set l.depth d').length := by omega
          have hsub := hbuf _ (List.getElem_mem hlt')
          unfold Lister.descend
          simp only
          rw [List.getElem?_eq_getElem hlt']
          unfold Dir.openSub
          simp only [g8, bind, Except.bind]
          have es : 19 - l.depth = 18 - l.depth + 1 := by omega
          rw [es] at hst hrest hc hfiles hcost
          rw [← es] at hst
          have hl : Listing ⟨(l.dirs.set l.depth d').set (l.depth + 1) { ((l.dirs.set l.depth d')[l.depth + 1]) with disk := d'.disk, firstSector := entryStart e, fileNo := -1 }, l.depth + 1,
              l.path ++ name ++ [47]⟩ disk rest (cost disk.image' (18 - l.depth) (entryStart e) 0 + (cost disk.image' (19 - l.depth) d.firstSector (j + 1) + c0)) := by
            refine ⟨by rw [List.length_set]; exact hlen, by show l.depth + 1 ≤ 19; omega, h.ok, set_buffers hbuf hsub, ?_⟩
            have hin : inside disk.image' (18 - l.depth + 1) (entryStart e) (l.path ++ name ++ [47]) = files disk.image' (18 - l.depth) (entryStart e) 0 (l.path ++ name ++ [47]) := rfl
            rw [hrest, hfiles, hin, List.append_assoc (files disk.image' (18 - l.depth) (entryStart e) 0 (l.path ++ name ++ [47])), ← es]
            refine Stack.sub (d := { ((l.dirs.set l.depth d')[l.depth + 1]) with disk := d'.disk, firstSector := entryStart e, fileNo := -1 }) (k := 0) ?_ hname (List.getElem?_set_self hlt') ?_ hdisk'
            · exact hst.congr fun i hi => List.getElem?_set_ne (by omega)
            · exact ⟨⟨by rw [hdisk']; exact h.ok, hsub.1, hsub.2, by show -1 ≤ (-1 : Int); omega, by show (-1 : Int) ≤ 63; omega⟩, rfl, fun h => absurd rfl h⟩
          have hc1 : 1 + cost disk.image' (18 - l.depth) (entryStart e) 0 + cost disk.image' (18 - l.depth + 1) d.firstSector (j + 1) ≤ cost disk.image' (18 - l.depth + 1) d.firstSector k := hcost
          rw [← es] at hc1 hc
          obtain ⟨l', hcase⟩ := ih _ (by omega) _ disk rest fuel hl (by omega)
          refine ⟨l', ?_⟩
          rcases hcase with hcase | ⟨path, rest', c', e1, e2, e3, e4⟩
          · exact Or.inl hcase
          · exact Or.inr ⟨path, rest', c', e1, e2, e3, by omega⟩
      · rw [if_neg ht] at hfiles hcost
        have hb : (entryType e == 0x10) = false := by simpa using ht
        simp only [hb, if_true]
        refine ⟨_, Or.inr ⟨l.path ++ name, files disk.image' (19 - l.depth) d.firstSector (j + 1) l.path ++ rest0, _, ?_, rfl, ⟨hlen, h.depth, h.ok, hbuf, hst⟩, by omega⟩⟩
        rw [hrest, hfiles]
        rfl

/-- All the paths `NextFile` gives. -/
def listFiles (inner : Nat) : Nat → Lister → M (List (List Nat))
  | 0, _ => .error .fuel
  | fuel + 1, l => do
    let r ← l.nextFile inner
    match r.1 with
    | none => .ok []
    | some path => do
      let rest ← listFiles inner fuel r.2
      .ok (path :: rest)

/-- C37: the lister ends, never accesses anything outside of its arrays, and gives the paths of all files in their order, in directories up to the depth of 19, for every image: directories may contain
themselves. -/
theorem C37_files (image : List Nat) (disk : Disk) (hb : AllBytes image) (hopen : openDisk image = .ok (some disk)) (l : Lister) (hl : l.dirs.length = 20)
    (hbuf : ∀ d ∈ l.dirs, d.sector.length = 128 ∧ AllBytes d.sector) :
    ∃ n l', l.openDisk disk = .ok l' ∧ ∀ fuel, n ≤ fuel → listFiles fuel fuel l' = .ok (files disk.image' 19 361 0 []) := by
  have hd := opened_ok hb hopen
  have h0 : 0 < l.dirs.length := by omega
  have hb0 := hbuf _ (List.getElem_mem h0)
  refine ⟨cost disk.image' 19 361 0 + 1, ⟨l.dirs.set 0 ((l.dirs[0]).openRoot disk), 0, []⟩, ?_, fun fuel hf => ?_⟩
  · unfold Lister.openDisk
    rw [List.getElem?_eq_getElem h0]
  · have start : Listing ⟨l.dirs.set 0 ((l.dirs[0]).openRoot disk), 0, []⟩ disk (files disk.image' 19 361 0 []) (cost disk.image' 19 361 0) :=
      ⟨by rw [List.length_set]; exact hl, Nat.zero_le _, hd, set_buffers hbuf hb0, .root (List.getElem?_set_self h0) (sync_root disk hd hb0.1 hb0.2) rfl⟩
    generalize hm : fuel = m at hf ⊢
    have key : ∀ (c outer : Nat) (l : Lister) (rest : List (List Nat)), Listing l disk rest c → c < outer → c ≤ m → listFiles m outer l = .ok rest := by
      intro c
      induction c using Nat.strong_induction_on with
      | _ c ih =>
        intro outer l rest h ho hm
        obtain ⟨outer, rfl⟩ : ∃ o, outer = o + 1 := ⟨outer - 1, by omega⟩
        unfold listFiles
        obtain ⟨l', ⟨e1, e2⟩ | ⟨path, rest', c', e1, e2, e3, e4⟩⟩ := nextFile_listing c l disk rest m h hm
        · rw [e2, e1]; rfl
        · rw [e2]
          simp only [bind, Except.bind]
          rw [ih c' e4 outer l' rest' e3 (by omega) (by omega), e1]
    exact key _ _ _ _ start (by omega) (by omega)

theorem listed_name {size : Nat} {e name : List Nat} (h : listed size e = some name) : FileName name := by
  unfold listed at h
  split at h
  · exact entryName_name h
  · simp at h

theorem fileName_length {name : List Nat} (h : FileName name) : name.length ≤ 12 := by
  rcases h with ⟨base, rfl, _, h, _⟩ | ⟨base, ext, rfl, h, _, h', _⟩
  · omega
  · simp; omega

/-- C37: what the lister gives are paths: correct names separated with slashes, at most 20 of them, for every image. -/
theorem C37_paths (i : Image) (depth : Nat) : ∀ (first k : Nat) (path p : List Nat), p ∈ files i depth first k path → ∃ q j, p = path ++ q ∧ FilePath j q ∧ j ≤ depth := by
  induction depth with
  | zero =>
    intro first k path p hp
    rw [files_eq] at hp
    obtain ⟨e, _, he⟩ := List.mem_flatMap.mp hp
    unfold pathsOf at he
    split at he
    · simp at he
    · rename_i name hn
      split at he
      · simp [inside] at he
      · rw [List.mem_singleton] at he
        exact ⟨name, 0, he, .file (listed_name hn), Nat.le_refl _⟩
  | succ depth ih =>
    intro first k path p hp
    rw [files_eq] at hp
    obtain ⟨e, _, he⟩ := List.mem_flatMap.mp hp
    unfold pathsOf at he
    split at he
    · simp at he
    · rename_i name hn
      split at he
      · obtain ⟨q, j, h1, h2, h3⟩ := ih _ _ _ _ he
        exact ⟨name ++ 47 :: q, j + 1, by rw [h1]; simp, .dir (listed_name hn) h2, by omega⟩
      · rw [List.mem_singleton] at he
        exact ⟨name, 0, he, .file (listed_name hn), Nat.zero_le _⟩

theorem findEntry_sync (fuel : Nat) : ∀ (d : Dir) (k : Nat) (name : List Nat), d.Sync k → 65 - k ≤ fuel →
    ∃ r d', Dir.findEntry fuel d name = .ok (r, d') ∧ d'.Valid ∧ d'.disk = d.disk ∧
      match (entries d.disk.image' d.firstSector k).find? fun e => listed d.disk.bytesPerSector e = some name with
      | none => r = false
      | some e => r = true ∧ d'.entryType = .ok (entryType e) ∧ d'.entryFirstSector = .ok (entryStart e) := by
  induction fuel with
  | zero => intro d k name h hf; have := h.valid.high; have := h.next; omega
  | succ fuel ih =>
    intro d k name h hf
    obtain ⟨r, d', h1, h2, h3, h4, h5, h6⟩ := nextEntry_sync 65 d k h (by omega)
    unfold Dir.findEntry
    rw [h1]
    simp only [bind, Except.bind]
    cases r with
    | none =>
      refine ⟨false, d', rfl, h2, h3, ?_⟩
      have : (entries d.disk.image' d.firstSector k).find? (fun e => listed d.disk.bytesPerSector e = some name) = none := by
        rw [List.find?_eq_none]
        intro e he
        simp [h5 rfl e he]
      rw [this]
    | some n =>
      obtain ⟨j, e, skipped, g1, g2, g3, g4, g5, g6, g7, g8, g9⟩ := h6 n rfl
      have hskip : skipped.find? (fun e => listed d.disk.bytesPerSector e = some name) = none := by
        rw [List.find?_eq_none]
        intro e he
        simp [g5 e he]
      simp only
      rw [g4, List.find?_append, hskip, Option.none_or, List.find?_cons]
      by_cases hn : n = name
      · subst hn
        rw [if_pos rfl]
        refine ⟨true, d', rfl, h2, h3, ?_⟩
        simp only [g6, decide_true]
        exact ⟨trivial, g7, g8⟩
      · rw [if_neg hn]
        have hd : decide (listed d.disk.bytesPerSector e = some name) = false := by
          rw [g6]; simpa using hn
        rw [hd]
        obtain ⟨r, d'', e1, e2, e3, e4⟩ := ih d' (j + 1) name g1 (by omega)
        rw [h3, h4] at e4
        exact ⟨r, d'', e1, e2, e3.trans h3, e4⟩

/-- C37: `FindEntry` on a directory just opened finds the first entry of the name, if there is one. -/
theorem C37_find (d : Dir) (h : d.Sync 0) (name : List Nat) :
    ∃ r d', Dir.findEntry 65 d name = .ok (r, d') ∧ d'.Valid ∧ d'.disk = d.disk ∧
      match find d.disk.image' d.firstSector name with
      | none => r = false
      | some e => r = true ∧ d'.entryType = .ok (entryType e) ∧ d'.entryFirstSector = .ok (entryStart e) :=
  findEntry_sync 65 d 0 name h (by omega)

theorem find_long {i : Image} {first : Nat} {name : List Nat} (h : 12 < name.length) : find i first name = none := by
  unfold find
  rw [List.find?_eq_none]
  intro e _ he
  have := fileName_length (listed_name (of_decide_eq_true he))
  omega

theorem findPath_part (name : List Nat) : ∀ (d : Dir) (part rest : List Nat), 47 ∉ name → d.findPath part (name ++ rest) = d.findPath (part ++ name) rest := by
  induction name with
  | nil => intro d part rest _; simp
  | cons c name ih =>
    intro d part rest h
    simp only [List.mem_cons, not_or] at h
    rw [List.cons_append, Dir.findPath, if_neg (fun e => h.1 e.symm), ih d (part ++ [c]) rest h.2, List.append_assoc]
    rfl

/-- C37: `FindEntryRecursively`, on a directory just opened, finds what is at the path, if there is something. -/
theorem C37_find_path (path : List (List Nat)) : ∀ (d : Dir), d.Sync 0 → path ≠ [] → (∀ name ∈ path, 47 ∉ name) →
    ∃ r d', d.findPath [] (List.intercalate [47] path) = .ok (r, d') ∧ d'.disk = d.disk ∧
      match resolve d.disk.image' d.firstSector path with
      | none => r = false
      | some e => r = true ∧ d'.entryType = .ok (entryType e) ∧ d'.entryFirstSector = .ok (entryStart e) := by
  induction path with
  | nil => intro d _ h; exact absurd rfl h
  | cons name path ih =>
    intro d h _ hs
    have hname := hs name List.mem_cons_self
    cases path with
    | nil =>
      have e : List.intercalate [47] [name] = name ++ [] := by simp [List.intercalate]
      rw [e, findPath_part name d [] [] hname, List.nil_append, Dir.findPath, resolve]
      by_cases hl : name.length > 12
      · rw [if_pos hl, find_long hl]
        exact ⟨false, d, rfl, rfl, rfl⟩
      · rw [if_neg hl]
        obtain ⟨r, d', h1, _, h2, h3⟩ := C37_find d h name
        exact ⟨r, d', h1, h2, h3⟩
    | cons next path =>
      have e : List.intercalate [47] (name :: next :: path) = name ++ (47 :: List.intercalate [47] (next :: path)) := by simp [List.intercalate]
      rw [e, findPath_part name d [] _ hname, List.nil_append, Dir.findPath, if_pos rfl]
      unfold Dir.enter
      have hres : resolve d.disk.image' d.firstSector (name :: next :: path) =
          (find d.disk.image' d.firstSector name).bind fun e => if entryType e = 0x10 then resolve d.disk.image' (entryStart e) (next :: path) else none := rfl
      rw [hres]
      by_cases hl : name.length > 12
      · rw [if_pos hl, find_long hl]
        exact ⟨false, d, rfl, rfl, rfl⟩
      · rw [if_neg hl]
        obtain ⟨r, d', h1, hv, h2, h3⟩ := C37_find d h name
        rw [h1]
        simp only [bind, Except.bind]
        cases hf : find d.disk.image' d.firstSector name with
        | none =>
          rw [hf] at h3
          subst h3
          exact ⟨false, d, rfl, rfl, rfl⟩
        | some e =>
          rw [hf] at h3
          obtain ⟨rfl, ht, hst⟩ := h3
          unfold Dir.isEntryDirectory
          simp only [ht, bind, Except.bind, Option.bind_some, Bool.true_eq_false, if_false]
          by_cases hdir : entryType e = 0x10
          · have hb : (entryType e == 0x10) = true := by simpa using hdir
            simp only [hdir, beq_self_eq_true, Bool.true_eq_false, if_false, if_true]
            unfold Dir.openSub
            simp only [hst, bind, Except.bind]
            have hsync : Dir.Sync { d' with firstSector := entryStart e, fileNo := -1 } 0 :=
              ⟨⟨hv.disk, hv.length, hv.bytes, by show -1 ≤ (-1 : Int); omega, by show (-1 : Int) ≤ 63; omega⟩, rfl, fun h => absurd rfl h⟩
            obtain ⟨r, d'', g1, g2, g3⟩ := ih _ hsync (by simp) (fun n hn => hs n (List.mem_cons_of_mem _ hn))
            refine ⟨r, d'', g1, g2.trans h2, ?_⟩
            rw [show d.disk = d'.disk from h2.symm]
            exact g3
          · have hb : (entryType e == 0x10) = false := by simpa using hdir
            simp only [hb, if_true, if_neg hdir]
            exact ⟨false, d, rfl, rfl, rfl⟩

end Asap.Props
