import Verif.Lemmas.Conv
import Verif.Props.LoadAny
import Verif.Props.Wav

/-! # The converter: sound files -/

namespace Asap.Conv
open Asap.Spec (InUse CanPlay generateEach generateAll served samplesIn blockSize runCalls expectedWav readWav)
open Asap.Spec.Conv

theorem applyTag_inv {text : Option (List Nat)} {set : Info → List Nat → M Unit × Info} {g : Info → List Nat → Info} {i r : Info} {e e1 : Env}
    (hs : ∀ i s, (set i s).1 = .ok () → (set i s).2 = g i s) (h : applyTag text set i e = (.ok r, e1)) :
    e1 = e ∧ r = (text.map (g i)).getD i := by
  cases text with
  | none =>
    obtain ⟨rfl, rfl⟩ := pure_inv h
    exact ⟨rfl, rfl⟩
  | some s =>
    unfold applyTag at h
    obtain ⟨⟨⟩, e2, k1, k2⟩ := bind_inv h
    obtain ⟨k3, rfl⟩ := lift_inv k1
    obtain ⟨rfl, rfl⟩ := pure_inv k2
    exact ⟨rfl, hs i s k3⟩

theorem applyTags_inv {i r : Info} {e e1 : Env} (h : applyTags i e = (.ok r, e1)) :
    r = tagged e.opts i ∧ e1 = { e with opts := { e.opts with name := none } } := by
  unfold applyTags at h
  obtain ⟨o, e2, k1, h⟩ := bind_inv h
  obtain ⟨rfl, rfl⟩ := get_inv k1
  obtain ⟨i1, e3, k2, h⟩ := bind_inv h
  have a1 := applyTag_inv (g := fun i s => { i with author := s }) (fun i s h => by
    unfold Info.setAuthor at h ⊢
    split at h <;> cases h
    rfl) k2
  obtain ⟨rfl, a1⟩ := a1
  obtain ⟨i2, e4, k3, h⟩ := bind_inv h
  have a2 := applyTag_inv (g := fun i s => { i with title := s }) (fun i s h => by
    unfold Info.setTitle at h ⊢
    split at h <;> cases h
    rfl) k3
  obtain ⟨rfl, a2⟩ := a2
  obtain ⟨_, e5, k4, h⟩ := bind_inv h
  have k4 := modify_inv k4
  have a3 := applyTag_inv (g := fun i s => { i with date := s }) (fun i s h => by
    unfold Info.setDate at h ⊢
    split at h <;> cases h
    rfl) h
  obtain ⟨rfl, a3⟩ := a3
  refine ⟨?_, k4⟩
  rw [a3, a2, a1]
  unfold tagged
  cases e4.opts.author <;> cases e4.opts.name <;> cases e4.opts.date <;> rfl

theorem loadModule_inv {fuel : Nat} {blank machine : Machine} {input m : List Nat} {e e1 : Env} (h : loadModule fuel blank input m e = (.ok machine, e1)) :
    ∃ m0, Loader.load fuel (some input) m (blank.setSampleRate e.opts.rate) = .ok m0 ∧ machine = { m0 with info := tagged e.opts m0.info } ∧
      e1 = { e with opts := { e.opts with name := none } } := by
  unfold loadModule at h
  obtain ⟨o, e2, k1, h2⟩ := bind_inv h
  obtain ⟨rfl, rfl⟩ := get_inv k1
  obtain ⟨m0, e3, k2, h3⟩ := bind_inv h2
  obtain ⟨g2, rfl⟩ := lift_inv k2
  obtain ⟨i, e4, k3, h4⟩ := bind_inv h3
  obtain ⟨g3, g4⟩ := applyTags_inv k3
  obtain ⟨g5, g6⟩ := pure_inv h4
  exact ⟨m0, g2, by rw [g5, g3], by rw [g6, g4]⟩

theorem save_save (std : Bool) (name a b : List Nat) (d : Disk) : save std name b (save std name a d) =
    if std = true then { d with stdout := d.stdout ++ a ++ b } else save std name b d := by
  unfold save
  by_cases h : std = true
  · simp only [if_pos h]
  · simp only [if_neg h]
    congr 1
    funext n
    unfold put
    split <;> rfl

theorem writeBytes_inv {t : Target} {a bytes : List Nat} {d : Disk} {e e1 : Env} {u : Unit} (hd : disk e = save t.stdout t.name a d)
    (h : writeBytes t bytes e = (.ok u, e1)) : disk e1 = save t.stdout t.name (a ++ bytes) d ∧ e1.opts = e.opts ∧ e1.song = e.song := by
  have := modify_inv h
  subst this
  unfold disk save at hd ⊢
  by_cases hs : t.stdout = true
  · simp only [if_pos hs] at hd ⊢
    injection hd with h1 h2
    refine ⟨?_, trivial, trivial⟩
    rw [h1, h2, List.append_assoc]
  · simp only [if_neg hs] at hd ⊢
    injection hd with h1 h2
    refine ⟨?_, trivial, trivial⟩
    rw [h2]
    congr 1
    funext n
    rw [h1]
    unfold put
    by_cases hn : n = t.name
    · rw [if_pos hn, if_pos hn, if_pos hn]; rfl
    · rw [if_neg hn, if_neg hn, if_neg hn]

theorem writeSamples_inv {t : Target} {d : Disk} : ∀ (calls : Nat) {machine r : Machine} {a : List Nat} {e e1 : Env}, disk e = save t.stdout t.name a d →
    writeSamples t calls machine e = (.ok r, e1) →
    ∃ rs last, generateEach e.opts.format (List.replicate (rs.length + 1) 8192) machine = .ok (rs ++ [last], r) ∧ last.2 ≠ 8192 ∧
      disk e1 = save t.stdout t.name (a ++ (((rs ++ [last]).map (·.1)).flatten).map Int.toNat) d ∧ e1.opts = e.opts ∧ e1.song = e.song
  | 0, _, _, _, _, _, _, h => by cases h
  | calls + 1, machine, r, a, e, e1, hd, h => by
    unfold writeSamples at h
    obtain ⟨o, e2, k1, h2⟩ := bind_inv h
    obtain ⟨rfl, rfl⟩ := get_inv k1
    obtain ⟨g, e3, k0, h3⟩ := bind_inv h2
    obtain ⟨k2, rfl⟩ := liftX_inv k0
    obtain ⟨_, e4, k3, h⟩ := bind_inv h3
    obtain ⟨b1, b2, b3⟩ := writeBytes_inv hd k3
    by_cases hc : g.1.2 = bufferSize
    · rw [if_pos hc] at h
      obtain ⟨rs, last, c1, c2, c3, c4, c5⟩ := writeSamples_inv calls b1 h
      refine ⟨g.1 :: rs, last, ?_, c2, ?_, c4.trans b2, c5.trans b3⟩
      · rw [List.length_cons, List.replicate_succ, generateEach_cons]
        rw [show Machine.generate 8192 e3.opts.format machine = .ok g from k2]
        dsimp only
        rw [b2] at c1
        rw [c1]
        rfl
      · rw [c3]
        congr 1
        rw [List.append_assoc]
        congr 1
        rw [List.cons_append, List.map_cons, List.flatten_cons, List.map_append (f := Int.toNat)]
    · rw [if_neg hc] at h
      obtain ⟨rfl, rfl⟩ := pure_inv h
      refine ⟨[], g.1, ?_, hc, ?_, b2, b3⟩
      · rw [show List.replicate ([] : List (List Int × Int)).length.succ (8192 : Int) = [8192] from rfl, generateEach_cons]
        rw [show Machine.generate 8192 e3.opts.format machine = .ok g from k2]
        rfl
      · rw [b1]
        simp

theorem served_last {size : Int} (hs : 0 < size) (hdiv : 8192 / size * size = 8192) : ∀ (k : Nat) (left : Int) {xs : List Int} {x : Int}, 0 ≤ left →
    served size left (List.replicate (k + 1) 8192) = xs ++ [x] → x ≠ 8192 → left ≤ ((List.replicate (k + 1) (8192 : Int)).map (· / size)).sum
  | 0, left, xs, x, hl, h, hx => by
    rw [show served size left (List.replicate (0 + 1) 8192) = [min (8192 / size) left * size] from rfl] at h
    have hxs : xs = [] := by
      cases xs with
      | nil => rfl
      | cons y ys =>
        have := congrArg List.length h
        simp at this
    subst hxs
    injection h with h _
    rw [show ((List.replicate (0 + 1) (8192 : Int)).map (· / size)).sum = 8192 / size + 0 from rfl]
    by_cases hc : 8192 / size ≤ left
    · rw [Int.min_eq_left hc, hdiv] at h
      exact absurd h.symm hx
    · omega
  | k + 1, left, xs, x, hl, h, hx => by
    rw [List.replicate_succ, served_cons] at h
    cases xs with
    | nil =>
      have := congrArg List.length h
      rw [List.replicate_succ, served_cons] at this
      simp at this
    | cons y ys =>
      rw [List.cons_append] at h
      injection h with h1 h2
      have := served_last hs hdiv k _ (by omega) h2 hx
      rw [List.replicate_succ, List.map_cons, List.sum_cons]
      omega

theorem sum_replicate (n : Nat) (x : Int) : (List.replicate n x).sum = n * x := by
  induction n with
  | zero => simp
  | succ n ih => rw [List.replicate_succ, List.sum_cons, ih]; rw [show ((n + 1 : Nat) : Int) = (n : Int) + 1 from rfl, Int.add_mul]; omega

theorem size_divides {m : Machine} (hc : m.info.channels = 1 ∨ m.info.channels = 2) (f : SampleFormat) :
    0 < blockSize m f ∧ 8192 / blockSize m f * blockSize m f = 8192 := by
  unfold blockSize
  rcases hc with h | h <;> rw [h] <;> cases f <;> decide

theorem runCalls_two {a b : Spec.Call} {m m1 m2 : Machine} (h1 : a.run m = .ok ((), m1)) (h2 : b.run m1 = .ok ((), m2)) :
    runCalls [a, b] m = .ok ((), m2) := by
  show C.bind a.run _ m = _
  unfold C.bind
  rw [h1]
  show C.bind b.run _ m1 = _
  unfold C.bind
  rw [h2]
  rfl

/-- An endless song is never finished. -/
theorem endless (f : SampleFormat) :
    ∀ (n : Nat) {m : Machine} {rs : List (List Int × Int)} {r : Machine}, Playing m → (m.info.channels = 1 ∨ m.info.channels = 2) → m.duration ≤ 0 → m.silence ≤ 0 →
      generateEach f (List.replicate n 8192) m = .ok (rs, r) → ∀ x ∈ rs, x.2 = 8192 := by
  intro n
  induction n with
  | zero =>
    intro m rs r _ _ _ _ hg
    cases hg
    intro x hx; cases hx
  | succ n ih =>
    intro m rs r h hc hd hs hg
    rw [List.replicate_succ, generateEach_cons] at hg
    have key := playing_generate h 8192 f
    rcases hx : Machine.generate 8192 f m with e | g
    · rw [hx] at hg; cases hg
    rw [hx] at hg key
    dsimp only at hg
    rcases hy : generateEach f (List.replicate n 8192) g.2 with e | q
    · rw [hy] at hg; cases hg
    rw [hy] at hg
    injection hg with hg
    injection hg with h1 h2
    subst h1
    have i1 := key.info
    have i2 := key.duration
    have i3 := key.silence
    intro x hx
    rcases List.mem_cons.mp hx with rfl | hx
    · obtain ⟨k, h1, _, _, _, _, h6⟩ := key.count
      rw [h1, h6 hs]
      unfold Machine.wantedBlocks
      rw [if_neg (by omega)]
      unfold Machine.blockShift shr shl
      rcases hc with h | h <;> rw [h] <;> cases f <;> decide
    · exact ih key.playing (by rw [i1]; exact hc) (by omega) (by omega) hy x hx

theorem songDuration_eq (o : Opts) (info : Info) (song : Int) : songDuration o info song = milliseconds o info song := by
  unfold songDuration milliseconds
  by_cases h : o.duration < 0
  · rw [if_pos h, if_neg (show ¬ 0 ≤ o.duration by omega)]; rfl
  · rw [if_neg h, if_pos (show 0 ≤ o.duration by omega)]

/-- One file with sound. -/
theorem writeSong_inv {calls : Nat} {header : Bool} {t : Target} {m m' : Machine} {e e1 : Env} {d : Disk} (hm : CanPlay m) (hs : m.silence ≤ 0)
    (hr : m.rate = e.opts.rate) (hdur : ∀ k, -1 ≤ m.info.durations k) (hd : disk e = save t.stdout t.name [] d) (h : writeSong calls header t m e = (.ok m', e1)) :
    CanPlay m' ∧ m'.info = m.info ∧ m'.rate = m.rate ∧ m'.silence = m.silence ∧ e1.opts = e.opts ∧ e1.song = e.song ∧
      ∃ bytes, disk e1 = save t.stdout t.name bytes d ∧ Recording e.opts header e.song m m' bytes := by
  unfold writeSong at h
  obtain ⟨m1, e2, k1, h2⟩ := bind_inv h
  unfold playSong at k1
  obtain ⟨x, x1, k2, h3⟩ := bind_inv k1
  obtain ⟨y1, y2⟩ := get_inv k2
  rw [y1, y2] at h3
  obtain ⟨q, x2, k3, h4⟩ := bind_inv h3
  obtain ⟨g1, y3⟩ := liftX_inv k3
  rw [y3] at h4
  obtain ⟨w, x3, k4, h5⟩ := bind_inv h4
  obtain ⟨g2, y4⟩ := liftX_inv k4
  rw [y4] at h5
  obtain ⟨g3, y5⟩ := pure_inv h5
  rw [g3, y5] at h2
  dsimp only [id] at g1 g2
  rw [songDuration_eq] at g1
  have hst := loaded_playSong hm.loaded e.song (milliseconds e.opts m.info e.song)
  obtain ⟨⟨⟩, q⟩ := q
  rw [g1] at hst
  obtain ⟨hst, hs0, hs1⟩ := hst
  have hmu := (starting_mute (E := fun _ => False) e.opts.mute) q hst
  obtain ⟨⟨⟩, w⟩ := w
  rw [show Machine.mutePokeyChannels e.opts.mute q = .ok ((), w) from g2] at hmu
  replace hmu : Starting (m.atStart e.song (milliseconds e.opts m.info e.song)) w := hmu
  have i1 : w.info = m.info := hmu.keeps.info
  have i2 : w.duration = milliseconds e.opts m.info e.song := hmu.keeps.duration
  have i3 : w.silence = m.silence := hmu.keeps.silence
  have i4 : w.rate = m.rate := hmu.keeps.rate
  have i5 : w.played = 0 := hmu.keeps.played
  have hp : Playing w := hmu.playing hm.loaded
  have hc : w.info.channels = 1 ∨ w.info.channels = 2 := by rw [i1]; exact hm.channels
  have hcalls : runCalls [.play e.song (milliseconds e.opts m.info e.song), .mute e.opts.mute] m = .ok ((), w) := runCalls_two g1 g2
  have huse : InUse w := ⟨m, _, _, _, hm, by
    intro c hc
    rw [List.mem_singleton.mp hc]
    trivial, hcalls⟩
  obtain ⟨_, e3, k5, k6⟩ := bind_inv h2
  replace k5 : writeHeader t header w e = (.ok _, e3) := k5
  replace k6 : writeSamples t calls w e3 = (.ok m', e1) := k6
  have hhead : ∃ hb, disk e3 = save t.stdout t.name hb d ∧ e3.opts = e.opts ∧ e3.song = e.song ∧ (header = false → hb = []) ∧
      (header = true → ∃ r, Wav.getWavHeader w e.opts.format e.opts.tag (List.replicate 8192 0) = .ok r ∧ hb = r.2.take r.1) := by
    unfold writeHeader at k5
    obtain ⟨_, _, k7, k8⟩ := bind_inv k5
    obtain ⟨rfl, rfl⟩ := get_inv k7
    cases header with
    | false =>
      obtain ⟨_, rfl⟩ := pure_inv (show (pure () : P Unit) _ = _ from k8)
      exact ⟨[], hd, rfl, rfl, fun _ => rfl, nofun⟩
    | true =>
      rw [if_pos rfl] at k8
      obtain ⟨r, _, k9, k10⟩ := bind_inv k8
      obtain ⟨g5, rfl⟩ := lift_inv k9
      obtain ⟨b1, b2, b3⟩ := writeBytes_inv hd k10
      exact ⟨_, b1, b2, b3, nofun, fun _ => ⟨r, g5, rfl⟩⟩
  obtain ⟨hb, a1, a2, a3, a4, a5⟩ := hhead
  obtain ⟨rs, last, c1, c2, c3, c4, c5⟩ := writeSamples_inv calls a1 k6
  rw [a2] at c1
  have hrate := hm.rate
  have hd0 : 0 ≤ milliseconds e.opts m.info e.song := by
    unfold milliseconds
    have := hdur e.song.toNat
    split
    · assumption
    · split <;> omega
  have hdp : 0 < w.duration := by
    rcases Int.lt_or_le 0 w.duration with h | h
    · exact h
    · have := endless e.opts.format _ hp hc h (by omega) c1 last (by simp)
      exact absurd this c2
  have esamples := Props.samplesIn_eq (rate := w.rate) (ms := w.duration) (by omega) (by omega)
  have hpos : 0 ≤ samplesIn w.rate w.duration := by
    unfold samplesIn
    exact Int.ediv_nonneg (Int.mul_nonneg (by omega) (by omega)) (by decide)
  have hserved := generateEach_served e.opts.format (List.replicate (rs.length + 1) 8192) hp hc (by
    intro x hx
    rw [List.eq_of_mem_replicate hx]; decide) hdp (by omega) (by omega) (by omega)
  rw [c1] at hserved
  obtain ⟨r1, r2, r3, r4, r5, r6, r7, r8, r9, r10⟩ := hserved
  rw [esamples, i5, Int.sub_zero] at r1
  dsimp only at r1 r2 r3 r4 r5 r6 r7
  obtain ⟨z1, z2⟩ := size_divides hc e.opts.format
  have henough := served_last z1 z2 rs.length (samplesIn w.rate w.duration) (xs := rs.map (·.2)) (x := last.2) hpos (by rw [← r1]; simp) c2
  have hsum := Props.served_sum z1 (List.replicate (rs.length + 1) 8192) (samplesIn w.rate w.duration) hpos (by
    intro x hx
    rw [List.eq_of_mem_replicate hx]; decide)
  rw [← r1, Int.min_eq_left henough] at hsum
  have hflat := Props.flatten_length (rs ++ [last]) r2
  rw [hsum] at hflat
  have hbs : blockSize w e.opts.format = blockSize m e.opts.format := by unfold blockSize; rw [i1]
  have hsplit := Props.C14_split w huse e.opts.format (8192 / blockSize w e.opts.format) (List.replicate rs.length (8192 / blockSize w e.opts.format))
    (Int.ediv_nonneg (by decide) (by omega)) (by
      intro x hx
      rw [List.eq_of_mem_replicate hx]
      exact Int.ediv_nonneg (by decide) (by omega))
  rw [← List.replicate_succ, List.map_replicate, z2, generateAll_eq, c1] at hsplit
  have hlarge : (List.replicate (rs.length + 1) (8192 / blockSize w e.opts.format)).sum * blockSize w e.opts.format = (rs.length + 1) * 8192 := by
    rw [sum_replicate, Int.mul_assoc, z2]; rfl
  refine ⟨⟨r3.ready.cpu.inRange, by rw [r7, i4]; exact hm.rate, by rw [r4, i1]; exact hm.songs, by rw [r4, i1]; exact hm.channels, by rw [r4, i1]; exact hm.music⟩,
    by rw [r4, i1], by rw [r7, i4], by rw [r6, i3], c4.trans a2, c5.trans a3, hb ++ List.map Int.toNat (List.map (fun x => x.1) (rs ++ [last])).flatten, c3, ?_⟩
  refine ⟨by rw [← i2]; exact hdp, by rw [r4, i1], w, _, (List.map (fun x => x.1) (rs ++ [last])).flatten, _, hb, hcalls, hsplit, ?_, ?_, rfl, ?_⟩
  · rw [hflat, hbs, i4, i2, hr]
  · rw [hflat]
    have h1 : samplesIn w.rate w.duration ≤ (List.replicate (rs.length + 1) (8192 / blockSize w e.opts.format)).sum := by
      rw [List.map_replicate] at henough
      exact henough
    exact Int.mul_le_mul_of_nonneg_right h1 (by omega)
  · by_cases hw : header = true
    · rw [if_pos hw]
      intro year hy ht ha hmax
      obtain ⟨r, hr1, hr2⟩ := a5 hw
      have hlen : 342 ≤ (List.replicate 8192 0).length := by rw [List.length_replicate]; decide
      generalize List.replicate 8192 0 = buf at hr1 hlen
      obtain ⟨n, b', x1, _, _, x2, _⟩ := Props.C16_header w huse e.opts.format e.opts.tag year (by rw [i1]; exact hy) (by rw [i1]; exact ht) (by rw [i1]; exact ha)
        buf ((List.map (fun x => x.1) (rs ++ [last])).flatten.map Int.toNat) hlen (by omega)
        (by rw [List.length_map, hflat, i5, Int.sub_zero]) (by rw [List.length_map]; exact hmax)
      rw [x1] at hr1
      injection hr1 with hr1
      subst hr1
      rw [hr2]
      exact x2
    · rw [if_neg hw]
      exact a4 (by simpa using hw)

/-- The songs left when the last one was `s`. -/
def pending (o : Opts) (info : Info) (pattern : List Nat) (s : Int) : List Int :=
  if perSong pattern = true then ((List.range info.songs).drop (s + 1).toNat).map Int.ofNat
  else if s < 0 then [if o.song < 0 then info.defaultSong else o.song] else []

theorem pending_start (o : Opts) (info : Info) (pattern : List Nat) : pending o info pattern (-1) = selected o info pattern := by
  unfold pending selected
  split
  · rfl
  · rw [if_pos (by decide)]

theorem pending_next {o : Opts} {info : Info} {allow : Bool} {pattern : List Nat} {s s' : Int} (hs : -1 ≤ s)
    (h : Next o info allow pattern s s') : pending o info pattern s = s' :: pending o info pattern s' ∧ -1 ≤ s' := by
  unfold pending
  rcases h with ⟨h1, _, _, h4, h5⟩ | ⟨h1, h2, h3⟩
  · rw [if_pos h1, if_pos h1]
    have hlt : (s + 1).toNat < (List.range info.songs).length := by rw [List.length_range]; omega
    rw [List.drop_eq_getElem_cons hlt, List.map_cons, List.getElem_range]
    refine ⟨?_, by omega⟩
    rw [show Int.ofNat (s + 1).toNat = s' by show (((s + 1).toNat : Nat) : Int) = _; omega, show (s' + 1).toNat = (s + 1).toNat + 1 by omega]
  · have hn : ¬ perSong pattern = true := by rw [h1]; decide
    rw [if_neg hn, if_neg hn, if_pos h2]
    rcases h3 with ⟨h3, h4⟩ | ⟨h3, h4, h5⟩
    · rw [if_pos h3, if_neg (by omega), h4]
      exact ⟨rfl, by omega⟩
    · rw [if_neg (by omega), if_neg (by omega), h5]
      exact ⟨rfl, by omega⟩

theorem pending_end {o : Opts} {info : Info} {allow : Bool} {pattern : List Nat} {s s' : Int}
    (h : (perSong pattern = true ∧ allow = true ∧ o.song < 0 ∧ s' = s + 1 ∧ info.songs ≤ s + 1) ∨ (perSong pattern = false ∧ 0 ≤ s ∧ s' = s)) :
    pending o info pattern s = [] := by
  unfold pending
  rcases h with ⟨h1, _, _, _, h5⟩ | ⟨h1, h2, _⟩
  · rw [if_pos h1, List.drop_eq_nil_of_le (by rw [List.length_range]; omega)]
    rfl
  · rw [if_neg (by rw [h1]; decide), if_neg (by omega)]

theorem opened_disk {m : List Nat} {info : Info} {allow : Bool} {pre ext dir stem : List Nat} {e e1 : Env} {t : Target}
    (h : Opened m info allow pre ext dir stem e (some t) e1) :
    outputName (tags info m e1.song) pre ext dir stem = some t.name ∧ t.name.length < 4096 ∧ t.stdout = decide (pre = [45]) ∧ e1.opts = e.opts ∧
      disk e1 = save t.stdout t.name [] (disk e) ∧ Next e.opts info allow (pre ++ 46 :: ext) e.song e1.song := by
  obtain ⟨h1, h2, h3, h4, h5⟩ := h.1 t rfl
  have hs : t.stdout = decide (pre = [45]) := by
    by_cases hp : pre = [45]
    · rw [decide_eq_true hp]; exact h3.mpr hp
    · rw [decide_eq_false hp]
      rcases hb : t.stdout with _ | _
      · rfl
      · exact absurd (h3.mp hb) hp
  refine ⟨h1, h2, hs, by rw [h4], ?_, h5⟩
  rw [h4]
  unfold disk save
  dsimp only
  by_cases hb : t.stdout = true
  · rw [if_pos hb, if_pos hb, List.append_nil]
  · rw [if_neg hb, if_neg hb]

theorem wavLoop_inv {calls : Nat} {input contents : List Nat} {header : Bool} {o : Opts} {pre ext dir stem x : List Nat}
    (ho : o.output = some (pre ++ 46 :: ext)) (hext : 46 ∉ ext) (hin : input = dir ++ (stem ++ 46 :: x)) (hx : 46 ∉ x) (hd : Folder dir)
    (hp : Plain (stem ++ 46 :: x)) : ∀ (fuel : Nat) {m : Machine} {e e1 : Env}, e.opts = o → -1 ≤ e.song → CanPlay m → m.silence ≤ 0 →
    m.rate = o.rate → (∀ k, -1 ≤ m.info.durations k) → wavLoop calls input contents header fuel m e = (.ok (), e1) →
    Outputs (decide (pre = [45])) (MakesSound o header contents pre ext dir stem) (pending o m.info (pre ++ 46 :: ext) e.song) m (disk e) (disk e1) ∧ e1.opts = o
  | 0, _, _, _, _, _, _, _, _, _, h => by cases h
  | fuel + 1, m, e, e1, he, hs, hm, hsil, hr, hdur, h => by
    unfold wavLoop at h
    obtain ⟨r, e2, k1, k2⟩ := bind_inv h
    have hopen := openOutput_inv (by rw [he]; exact ho) hext hin hx hd hp k1
    cases r with
    | none =>
      obtain ⟨_, rfl⟩ := pure_inv (show (pure () : P Unit) e2 = _ from k2)
      obtain ⟨a1, a2⟩ := hopen.2 rfl
      rw [he] at a2
      rw [pending_end a2]
      refine ⟨?_, by rw [a1]; exact he⟩
      show disk e1 = disk e
      rw [a1]
      rfl
    | some t =>
      obtain ⟨a1, a2, a3, a4, a5, a6⟩ := opened_disk hopen
      rw [he] at a6
      obtain ⟨p1, p2⟩ := pending_next hs a6
      obtain ⟨m', e3, k3, k4⟩ := bind_inv (show ((writeSong calls header t m >>= fun machine => wavLoop calls input contents header fuel machine) : P Unit) e2 = _ from k2)
      have a4' : e2.opts = o := a4.trans he
      obtain ⟨b1, b2, b3, b4, b5, b6, bytes, b7, b8⟩ := writeSong_inv hm hsil (by rw [a4']; exact hr) hdur a5 k3
      have hrec := wavLoop_inv ho hext hin hx hd hp fuel (b5.trans a4') (by rw [b6]; exact p2) b1 (by rw [b4]; exact hsil) (by rw [b3]; exact hr) (by rw [b2]; exact hdur) k4
      rw [p1]
      refine ⟨⟨m', t.name, bytes, ⟨⟨a1, a2⟩, by rw [← a4']; exact b8⟩, ?_⟩, hrec.2⟩
      have := hrec.1
      rw [b2, b6, b7, a3] at this
      exact this

theorem applySong_eq (xex : Bool) (e : Env) (i : Info) : applySong xex e i = forSong e.opts xex e.song i := by
  unfold applySong forSong Info.setDefaultSong Info.setDuration
  by_cases h : 0 ≤ e.song ∧ e.song < i.songs
  · rw [if_pos h]
    have hn : ¬ (e.song < 0 ∨ e.song ≥ i.songs) := by omega
    have hk : ∀ k : Nat, ((k : Int) = e.song) = (k = e.song.toNat) := fun k => propext ⟨fun h => by omega, fun h => by omega⟩
    cases xex with
    | false =>
      by_cases hd : e.opts.duration ≥ 0
      · simp only [Bool.false_eq_true, if_false, if_pos hd, if_neg hn, upd, hk]
        congr 1
        funext k
        unfold upd
        by_cases hkk : k = e.song.toNat
        · rw [if_pos hkk, if_pos ⟨hd, hkk⟩]
        · rw [if_neg hkk, if_neg (fun x => hkk x.2)]
      · simp only [Bool.false_eq_true, if_false, if_neg hd]
        have : (fun k : Nat => if 0 ≤ e.opts.duration ∧ (k : Int) = e.song then e.opts.duration else i.durations k) = i.durations := by
          funext k
          rw [if_neg (fun x => hd x.1)]
        rw [this]
    | true =>
      by_cases hd : e.opts.duration ≥ 0
      · simp only [if_true, if_pos hd, if_neg hn, upd, hk]
        congr 1
        funext k
        unfold upd
        by_cases hkk : k = e.song.toNat
        · rw [if_pos hkk, if_pos ⟨hd, hkk⟩]
        · rw [if_neg hkk, if_neg (fun x => hkk x.2)]
      · simp only [if_true, if_neg hd, if_neg hn]
        have : (fun k : Nat => if 0 ≤ e.opts.duration ∧ (k : Int) = e.song then e.opts.duration else i.durations k) = i.durations := by
          funext k
          rw [if_neg (fun x => hd x.1)]
        rw [this]
  · rw [if_neg h]
    have hn : e.song < 0 ∨ e.song ≥ i.songs := by omega
    cases xex <;> by_cases hd : e.opts.duration ≥ 0 <;> simp [if_pos hn, hd]

theorem forSong_songs (o : Opts) (xex : Bool) (song : Int) (i : Info) : (forSong o xex song i).songs = i.songs := by
  unfold forSong
  split <;> rfl

theorem moduleLoop_inv {fuel : Nat} {input contents : List Nat} {xex : Bool} {o : Opts} {pre ext dir stem x : List Nat}
    (ho : o.output = some (pre ++ 46 :: ext)) (hext : 46 ∉ ext) (hin : input = dir ++ (stem ++ 46 :: x)) (hx : 46 ∉ x) (hd : Folder dir)
    (hp : Plain (stem ++ 46 :: x)) : ∀ (n : Nat) {i : Info} {e e1 : Env}, e.opts = o → -1 ≤ e.song →
    moduleLoop fuel input contents xex n i e = (.ok (), e1) →
    Outputs (decide (pre = [45])) (MakesModule fuel o xex contents pre ext dir stem) (pending o i (pre ++ 46 :: ext) e.song) i (disk e) (disk e1) ∧ e1.opts = o
  | 0, _, _, _, _, _, h => by cases h
  | n + 1, i, e, e1, he, hs, h => by
    unfold moduleLoop at h
    obtain ⟨r, e2, k1, k2⟩ := bind_inv h
    have hopen := openOutput_inv (by rw [he]; exact ho) hext hin hx hd hp k1
    cases r with
    | none =>
      obtain ⟨_, rfl⟩ := pure_inv (show (pure () : P Unit) e2 = _ from k2)
      obtain ⟨a1, a2⟩ := hopen.2 rfl
      rw [he] at a2
      rw [pending_end a2]
      refine ⟨?_, by rw [a1]; exact he⟩
      show disk e1 = disk e
      rw [a1]
      rfl
    | some t =>
      obtain ⟨a1, a2, a3, a4, a5, a6⟩ := opened_disk hopen
      rw [he] at a6
      obtain ⟨p1, p2⟩ := pending_next hs a6
      obtain ⟨y, y1, k3, k4⟩ := bind_inv k2
      obtain ⟨y2, y3⟩ := get_inv k3
      rw [y2, y3] at k4
      dsimp only [id] at k4
      obtain ⟨bytes, y4, k5, k6⟩ := bind_inv k4
      obtain ⟨y5, y6⟩ := lift_inv k5
      rw [y6] at k6
      obtain ⟨_, e3, k7, k8⟩ := bind_inv k6
      obtain ⟨b1, b2, b3⟩ := writeBytes_inv a5 k7
      have a4' : e2.opts = o := a4.trans he
      rw [applySong_eq, a4'] at k8 y5
      have hrec := moduleLoop_inv ho hext hin hx hd hp n (b2.trans a4') (by rw [b3]; exact p2) k8
      rw [p1]
      refine ⟨⟨forSong o xex e2.song i, t.name, bytes, ⟨⟨a1, a2⟩, rfl, ?_⟩, ?_⟩, hrec.2⟩
      · unfold writerOutput at y5
        dsimp only at y5
        rcases hw : write fuel t.name (forSong o xex e2.song i) contents o.tag (setOutput (List.replicate 65000 0) 0 65000) with ⟨r, w⟩
        rw [hw] at y5
        cases r with
        | error f => cases y5
        | ok k =>
          injection y5 with y5
          exact ⟨k, w, rfl, y5.symm⟩
      · have := hrec.1
        rw [b3, b1, a3, List.nil_append] at this
        have hsame : pending o (forSong o xex e2.song i) (pre ++ 46 :: ext) e2.song = pending o i (pre ++ 46 :: ext) e2.song := by
          unfold pending
          rw [forSong_songs]
          split
          · rfl
          · rename_i hper
            have : 0 ≤ e2.song := by
              rcases a6 with ⟨h1, _⟩ | ⟨_, _, h3⟩
              · exact absurd h1 hper
              · rcases h3 with ⟨_, h⟩ | ⟨h, _, h'⟩ <;> omega
            rw [if_neg (by omega), if_neg (by omega)]
        rw [hsame] at this
        exact this

end Asap.Conv
