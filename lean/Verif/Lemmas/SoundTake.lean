import Verif.Lemmas.SoundSong

/-! What the chips did up to some moment of a playback: frames, and requests for samples after them. -/

namespace Asap
open Machine (frameCycles)
open Spec (PairEvent runPair stepPair)
open Spec.Sound (stamps allStamps total samplesAt wanted produce produceOne Frame)

theorem produce_of_run : ∀ {es : List PairEvent} {q r : Pair}, (∀ e ∈ es, ∀ b f, e ≠ .generate b f) → runPair q es = .ok r →
    produce q es = .ok ([], r)
  | [], q, r, _, h => by cases h; rfl
  | e :: es, q, r, hg, h => by
    unfold runPair at h
    show (produceOne q e >>= fun r => produce r.2 es >>= fun s => .ok (r.1 ++ s.1, s.2)) = _
    rw [Sound.produce_quiet (hg e (by simp))]
    cases hx : stepPair q e with
    | error x => rw [hx] at h; nomatch h
    | ok p =>
      rw [hx] at h
      have h : runPair p es = .ok r := h
      show (produce p es >>= fun s => .ok ([] ++ s.1, s.2)) = _
      rw [produce_of_run (fun e he => hg e (by simp [he])) h]
      rfl

theorem stamps_shift (T : Int) : ∀ es : List PairEvent, stamps T es = (stamps 0 es).map (T + ·)
  | [] => rfl
  | e :: es => by cases e <;> simp [stamps, stamps_shift T es]

theorem served_append (factor : Int) : ∀ (fs gs : List Frame) (T : Int), Spec.Sound.Served factor T (fs ++ gs) ↔ Spec.Sound.Served factor T fs ∧ Spec.Sound.Served factor (T + total fs) gs
  | [], gs, T => by rw [show T + total [] = T from Int.add_zero T]; exact ⟨fun h => ⟨trivial, h⟩, fun h => h.2⟩
  | f :: fs, gs, T => by
    show (_ ∧ _ ∧ Spec.Sound.Served factor (T + f.length) (fs ++ gs)) ↔ (_ ∧ _ ∧ Spec.Sound.Served factor (T + f.length) fs) ∧ Spec.Sound.Served factor (T + (f.length + total fs)) gs
    rw [served_append factor fs gs, Int.add_assoc, and_assoc, and_assoc]

theorem wanted_append : ∀ es fs : List PairEvent, wanted (es ++ fs) = wanted es + wanted fs
  | [], fs => (Int.zero_add _).symm
  | e :: es, fs => by
    cases e with
    | generate b f =>
      show b + wanted (es ++ fs) = b + wanted es + wanted fs
      rw [wanted_append es fs]; omega
    | _ => exact wanted_append es fs

/-- What the last frame still offers. -/
inductive Offer (factor : Int) (m : Machine) : List Frame → Prop
  | nothing : m.pk.readyStart = 0 → m.pk.readyEnd = 0 → m.played = 0 → Offer factor m []
  | frame (gs : List Frame) (f : Frame) : 1 ≤ m.pk.readyEnd → m.pk.readyEnd = samplesAt factor (total gs + f.length) - samplesAt factor (total gs) →
      0 ≤ wanted f.output → m.pk.readyStart = min m.pk.readyEnd (wanted f.output) →
      m.played = samplesAt factor (total gs) + m.pk.readyStart → Spec.Sound.Served factor 0 gs → Offer factor m (gs ++ [f])

/-- The frames `fs` have been played since the chips were `q0`, and the user got `bytes`. -/
structure Played (q0 : Pair) (told : List Signal) (ntsc : Bool) (format : SampleFormat) (fs : List Frame) (bytes : List Int) (m : Machine) : Prop where
  playing : Playing m
  tv : m.info.ntsc = ntsc
  run : produce q0 (fs.flatMap Frame.history) = .ok (bytes, m.pk)
  told : m.told = (loud (fs.flatMap Frame.events)).reverse ++ told
  factor : m.pk.factor = q0.factor
  shape : ∀ f ∈ fs, f.length = frameCycles ntsc ∧ ∃ es, f.events = es ++ [.timers f.length] ∧ ∀ e ∈ es, Driven e
  after : ∀ f ∈ fs, ∀ e ∈ f.output, ∃ n, 0 ≤ n ∧ e = .generate n format
  order : (allStamps 0 fs).Pairwise (· ≤ ·)
  late : ∀ x ∈ allStamps 0 fs, x ≤ total fs + m.cpu.cycle
  offset : m.pk.offset = total fs * q0.factor % 2 ^ 18
  offer : Offer q0.factor m fs

section
variable {q0 : Pair} {told : List Signal} {ntsc : Bool} {format : SampleFormat} {fs : List Frame} {bytes : List Int} {m : Machine}

theorem generate_none {q : Pair} {left : Int} (h : q.readyEnd = q.readyStart) (hl : 0 ≤ left) (f : SampleFormat) : q.generate left f = .ok ([], 0, q) := by
  unfold Pair.generate
  dsimp only
  rw [if_neg (by omega), if_neg (by omega)]
  refine congrArg Except.ok (Prod.ext rfl (Prod.ext ?_ rfl))
  show q.readyEnd - q.readyStart = 0
  omega

/-- The user takes some samples. -/
theorem Played.take (h : Played q0 told ntsc format fs bytes m) {left : Int} (hl : 0 ≤ left) :
    XPost Any (fun r => ∃ fs', Played q0 told ntsc format fs' (bytes ++ r.1.1) r.2 ∧ (r.1.2 < left → r.2.pk.readyStart = r.2.pk.readyEnd))
      (Machine.generateBlocks left format m) := by
  have hk := playing_generateBlocks h.playing left format
  have hrun := h.run
  cases hx : Machine.generateBlocks left format m with
  | error e => trivial
  | ok r =>
    rw [hx] at hk
    obtain ⟨⟨new, n⟩, m'⟩ := r
    obtain ⟨k1, k2, k3⟩ := hk
    dsimp only at k1 k2 k3
    rw [generateBlocks_eq] at hx
    have hcount : n = min left (m.pk.readyEnd - m.pk.readyStart) := k2.count
    have hstart : m'.pk.readyStart = m.pk.readyStart + max 0 n := k2.start
    have hstop : m'.pk.readyEnd = m.pk.readyEnd := k2.stop
    have hwin := h.playing.ready.window
    have hplayed : m'.played = m.played + n := by rw [k3]
    have hcpu : m'.cpu = m.cpu := by rw [k3]
    have htold : m'.told = m.told := by rw [k3]
    have hinfo : m'.info = m.info := by rw [k3]
    have hfull : n < left → m'.pk.readyStart = m'.pk.readyEnd := fun hn => by omega
    have hgen : m.pk.generate left format = .ok (new, n, m'.pk) := by
      cases hy : m.pk.generate left format with
      | error e => rw [hy] at hx; nomatch hx
      | ok s =>
        rw [hy] at hx
        have hx := Except.ok.inj hx
        have e1 : s.1 = new := congrArg (fun r => r.1.1) hx
        have e2 : s.2.1 = n := congrArg (fun r => r.1.2) hx
        have e3 : s.2.2 = m'.pk := congrArg (fun r => r.2.pk) hx
        exact congrArg Except.ok (Prod.ext e1 (Prod.ext e2 e3))
    cases h.offer with
    | nothing z1 z2 z3 =>
      have hn : n = 0 := by omega
      have e := generate_none (q := m.pk) (by omega) hl format
      rw [hgen] at e
      have e := Except.ok.inj e
      have e1 : new = [] := congrArg Prod.fst e
      have e2 : m'.pk = m.pk := congrArg (fun r => r.2.2) e
      refine ⟨[], ⟨k1, by rw [hinfo]; exact h.tv, ?_, htold.trans h.told, by rw [e2]; exact h.factor, h.shape, h.after, h.order,
        by rw [hcpu]; exact h.late, by rw [e2]; exact h.offset, ?_⟩, hfull⟩
      · show _ = Except.ok (bytes ++ new, m'.pk)
        rw [e1, e2, List.append_nil]; exact hrun
      · exact .nothing (by rw [e2]; exact z1) (by rw [e2]; exact z2) (by rw [hplayed, z3, hn]; rfl)
    | frame gs f o1 o2 o3 o4 o5 o6 =>
      let f' : Frame := ⟨f.events, f.length, f.output ++ [.generate left format]⟩
      have hev : (gs ++ [f']).flatMap Frame.events = (gs ++ [f]).flatMap Frame.events := by simp [f']
      have hst : allStamps 0 (gs ++ [f']) = allStamps 0 (gs ++ [f]) := by rw [Sound.allStamps_append, Sound.allStamps_append]; rfl
      have htot : total (gs ++ [f']) = total (gs ++ [f]) := by rw [Sound.total_append, Sound.total_append]; rfl
      have hhist : (gs ++ [f']).flatMap Frame.history = (gs ++ [f]).flatMap Frame.history ++ [.generate left format] := by
        simp [f', Spec.Sound.Frame.history]
      refine ⟨gs ++ [f'], ⟨k1, by rw [hinfo]; exact h.tv, ?_, ?_, ?_, ?_, ?_, ?_, ?_, ?_, ?_⟩, hfull⟩
      · rw [hhist, Sound.produce_append, hrun]
        show (produceOne m.pk (.generate left format) >>= fun r => produce r.2 [] >>= fun s => .ok (r.1 ++ s.1, s.2)) >>= (fun s => .ok (bytes ++ s.1, s.2)) = _
        show ((m.pk.generate left format >>= fun r => .ok (r.1, r.2.2)) >>= fun r => produce r.2 [] >>= fun s => .ok (r.1 ++ s.1, s.2)) >>= (fun s => .ok (bytes ++ s.1, s.2)) = _
        rw [hgen]
        show Except.ok (bytes ++ (new ++ []), m'.pk) = _
        rw [List.append_nil]
      · rw [hev]; exact htold.trans h.told
      · exact (show m'.pk.factor = m.pk.factor from k2.factor).trans h.factor
      · intro g hg
        rcases List.mem_append.1 hg with hg | hg
        · exact h.shape g (by simp [hg])
        · rw [List.mem_singleton.1 hg]
          exact h.shape f (by simp)
      · intro g hg
        rcases List.mem_append.1 hg with hg | hg
        · exact h.after g (by simp [hg])
        · rw [List.mem_singleton.1 hg]
          intro e he
          rcases List.mem_append.1 he with he | he
          · exact h.after f (by simp) e he
          · exact ⟨left, hl, List.mem_singleton.1 he⟩
      · rw [hst]; exact h.order
      · rw [hst, htot, hcpu]; exact h.late
      · rw [htot]; exact (show m'.pk.offset = m.pk.offset from k2.offset).trans h.offset
      · have hw : wanted f'.output = wanted f.output + left := by
          show wanted (f.output ++ [.generate left format]) = _
          rw [wanted_append]
          show _ + (left + 0) = _
          omega
        exact Offer.frame (m := m') gs f' (by omega) (by rw [hstop]; exact o2) (by omega) (by rw [hw]; omega) (by omega) o6

/-- A frame is played. -/
theorem Played.frame (h : Played q0 told ntsc format fs bytes m) (hx : m.pk.readyStart = m.pk.readyEnd) :
    XPost Any (fun r => ∃ fs', Played q0 told ntsc format fs' bytes r.2) (Machine.doFrame m) := by
  have hd := playing_doFrame h.playing
  have ht := doFrame_told h.playing.ready
  cases hy : Machine.doFrame m with
  | error e => trivial
  | ok r =>
    rw [hy] at hd ht
    obtain ⟨cyc, m'⟩ := r
    obtain ⟨hc, d1, d2, -, d3, d4⟩ := hd
    obtain ⟨es, t1, t2, t3, t4, t5⟩ := ht
    dsimp only at d1 d2 d3 d4 t1 t2 t3 t4 t5
    rw [h.tv] at t1 t2 t3 t4
    have hl := frameCycles_range ntsc
    have h0 := h.offset
    generalize hn : frameCycles ntsc = n at *
    let f : Frame := ⟨es ++ [.timers n], n, []⟩
    have htot : total (fs ++ [f]) = total fs + n := by
      rw [Sound.total_append]
      show total fs + (n + 0) = _
      omega
    have hsf : allStamps (total fs) [f] = (stamps 0 es).map (total fs + ·) := by
      show stamps (total fs) (es ++ [.timers n]) ++ [] = _
      rw [List.append_nil, stamps_append, stamps_shift]
      show _ ++ [] = _
      rw [List.append_nil]
    have hst : allStamps 0 (fs ++ [f]) = allStamps 0 fs ++ (stamps 0 es).map (total fs + ·) := by
      rw [Sound.allStamps_append, Int.zero_add, hsf]
    have e18 : ∀ v, shr v 18 = v / 262144 := fun v => rfl
    have hband : ∀ v, band v ((1 <<< 18) - 1) = v % 262144 := fun v => band_mask 18 v
    rw [e18] at t3
    rw [hband] at t4
    rw [h.factor] at t3 t4
    have hmul : (total fs + n) * q0.factor = total fs * q0.factor + n * q0.factor := Int.add_mul _ _ _
    have hoff : m'.pk.offset = total (fs ++ [f]) * q0.factor % 2 ^ 18 := by
      rw [htot, hmul, t4, h0]
      omega
    have hend : m'.pk.readyEnd = samplesAt q0.factor (total fs + n) - samplesAt q0.factor (total fs) := by
      unfold samplesAt
      rw [hmul, t3, h0]
      omega
    refine ⟨fs ++ [f], ⟨d1, by rw [d2.info]; exact h.tv, ?_, ?_, t5.trans h.factor, ?_, ?_, ?_, ?_, hoff, ?_⟩⟩
    · have hp := produce_of_run (q := m.pk) (r := m'.pk) (fun e he b g hg => ?_) t1
      · rw [List.flatMap_append, Sound.produce_append, h.run]
        show (produce m.pk ([f].flatMap Frame.history) >>= fun s => .ok (bytes ++ s.1, s.2)) = _
        have e : [f].flatMap Frame.history = .start :: (es ++ [.timers n]) ++ [.finish n] := by simp [f, Spec.Sound.Frame.history]
        rw [e, hp]
        show Except.ok (bytes ++ [], m'.pk) = _
        rw [List.append_nil]
      · subst hg
        rcases List.mem_append.1 he with he | he
        · rcases List.mem_cons.1 he with he | he
          · cases he
          · rcases List.mem_append.1 he with he | he
            · exact t2.driven _ he
            · cases List.mem_singleton.1 he
        · cases List.mem_singleton.1 he
    · rw [t2.told, h.told, List.flatMap_append, loud_append (fs.flatMap _), List.reverse_append, List.append_assoc]
      simp [f]
    · intro g hg
      rcases List.mem_append.1 hg with hg | hg
      · exact h.shape g hg
      · rw [List.mem_singleton.1 hg]
        exact ⟨hn.symm, es, rfl, t2.driven⟩
    · intro g hg
      rcases List.mem_append.1 hg with hg | hg
      · exact h.after g hg
      · rw [List.mem_singleton.1 hg]
        nofun
    · rw [hst]
      refine List.pairwise_append.2 ⟨h.order, ?_, fun x hx y hy => ?_⟩
      · exact t2.order.map _ fun a b hab => by show total fs + a ≤ total fs + b; omega
      · obtain ⟨w, hw, rfl⟩ := List.mem_map.1 hy
        have h1 := h.late x hx
        have h2 := (t2.range w hw).1
        show x ≤ total fs + w
        omega
    · intro x hx
      rw [hst] at hx
      show x ≤ total (fs ++ [f]) + m'.cpu.cycle
      rw [htot]
      rcases List.mem_append.1 hx with hx | hx
      · have h1 := h.late x hx
        have h2 := h.playing.ready.time
        have h3 := d1.ready.time
        omega
      · obtain ⟨w, hw, rfl⟩ := List.mem_map.1 hx
        have h2 := (t2.range w hw).2
        show total fs + w ≤ total fs + n + m'.cpu.cycle
        omega
    · refine Offer.frame (m := m') fs f d4 hend (Int.le_refl 0) ?_ ?_ ?_
      · show _ = min m'.pk.readyEnd 0
        omega
      · have hp : m'.played = m.played := d2.played
        rw [hp, d3]
        cases h.offer with
        | nothing z1 z2 z3 =>
          rw [z3]
          show 0 = 0 * q0.factor / 2 ^ 18 + 0
          rw [Int.zero_mul]; rfl
        | frame gs g o1 o2 o3 o4 o5 o6 =>
          rw [Sound.total_append]
          show _ = samplesAt q0.factor (total gs + (g.length + 0)) + 0
          rw [Int.add_zero g.length]
          omega
      · cases h.offer with
        | nothing z1 z2 z3 => trivial
        | frame gs g o1 o2 o3 o4 o5 o6 =>
          refine (served_append _ gs [g] 0).2 ⟨o6, ?_, ?_, trivial⟩
          · rw [Int.zero_add]; omega
          · rw [Int.zero_add]; omega

theorem Played.listened (h : Played q0 told ntsc format fs bytes m) (cycles : Int) : Played q0 told ntsc format fs bytes (m.listened cycles) := by
  have hp := h.playing.listened cycles
  unfold Machine.listened at hp ⊢
  have ho := h.offer
  repeat' split
  · rename_i c1 c2
    rw [if_pos c1, if_pos c2] at hp
    refine ⟨hp, h.tv, h.run, h.told, h.factor, h.shape, h.after, h.order, h.late, h.offset, ?_⟩
    cases ho with
    | nothing z1 z2 z3 => exact .nothing z1 z2 z3
    | frame gs f o1 o2 o3 o4 o5 o6 => exact .frame gs f o1 o2 o3 o4 o5 o6
  · rename_i c1 c2
    rw [if_pos c1, if_neg c2] at hp
    refine ⟨hp, h.tv, h.run, h.told, h.factor, h.shape, h.after, h.order, h.late, h.offset, ?_⟩
    cases ho with
    | nothing z1 z2 z3 => exact .nothing z1 z2 z3
    | frame gs f o1 o2 o3 o4 o5 o6 => exact .frame gs f o1 o2 o3 o4 o5 o6
  · exact h
end

theorem played_generateLoop {q0 : Pair} {told : List Signal} {ntsc : Bool} {format : SampleFormat} : ∀ (fuel : Nat) (m : Machine) (left : Int)
    (fs : List Frame) (bytes : List Int), 0 ≤ left → Played q0 told ntsc format fs bytes m →
    XPost Any (fun r => ∃ fs', Played q0 told ntsc format fs' (bytes ++ r.1.1) r.2) (Machine.generateLoop format fuel left m)
  | 0, _, _, _, _, _, _ => trivial
  | fuel + 1, m, left, fs, bytes, hl, h => by
    show XPost Any _ (C.bind (Machine.generateBlocks left format) _ m)
    have hk := h.take hl
    unfold C.bind
    cases hx : Machine.generateBlocks left format m with
    | error e => trivial
    | ok r =>
      rw [hx] at hk
      obtain ⟨⟨new, n⟩, m1⟩ := r
      obtain ⟨fs1, h1, h2⟩ := hk
      dsimp only at h1 h2 ⊢
      by_cases hge : n ≥ left
      · rw [if_pos hge]
        exact ⟨fs1, h1⟩
      · rw [if_neg hge]
        show XPost Any _ (C.bind Machine.doFrame _ m1)
        have hd := h1.frame (h2 (by omega))
        unfold C.bind
        cases hy : Machine.doFrame m1 with
        | error e => trivial
        | ok r2 =>
          rw [hy] at hd
          obtain ⟨cyc, m2⟩ := r2
          obtain ⟨fs2, h3⟩ := hd
          dsimp only at h3 ⊢
          have hls : Machine.listen cyc m2 = .ok (m2.goesOn cyc, m2.listened cyc) := listen_eq m2 cyc
          show XPost Any _ (C.bind (Machine.listen cyc) _ m2)
          unfold C.bind
          rw [hls]
          dsimp only
          have h4 := h3.listened cyc
          by_cases hgo : m2.goesOn cyc = true
          · rw [if_pos hgo]
            show XPost Any _ (C.bind (Machine.generateLoop format fuel (left - n)) _ (m2.listened cyc))
            have hrec := played_generateLoop fuel (m2.listened cyc) (left - n) fs2 (bytes ++ new) (by omega) h4
            unfold C.bind
            cases hz : Machine.generateLoop format fuel (left - n) (m2.listened cyc) with
            | error e => trivial
            | ok r3 =>
              rw [hz] at hrec
              obtain ⟨⟨bytes3, n3⟩, m4⟩ := r3
              obtain ⟨fs5, h5⟩ := hrec
              refine ⟨fs5, ?_⟩
              show Played q0 told ntsc format fs5 (bytes ++ (new ++ bytes3)) m4
              rw [← List.append_assoc]
              exact h5
          · rw [if_neg hgo]
            exact ⟨fs2, h4⟩

/-- The end of the song is not passed. -/
def InTime (m : Machine) : Prop := m.duration > 0 → m.played ≤ Machine.millisecondsToBlocks m.rate m.duration

theorem played_takes {q0 : Pair} {told : List Signal} {ntsc : Bool} {format : SampleFormat} : ∀ (ns : List Int) (m : Machine)
    (fs : List Frame) (bytes : List Int), (∀ n ∈ ns, 0 ≤ n) → InTime m → Played q0 told ntsc format fs bytes m →
    XPost Any (fun r => ∃ fs', Played q0 told ntsc format fs' (bytes ++ r.1) r.2) (Spec.Sound.takes format ns m)
  | [], m, fs, bytes, _, _, h => ⟨fs, by
      show Played q0 told ntsc format fs (bytes ++ []) m
      rw [List.append_nil]; exact h⟩
  | n :: ns, m, fs, bytes, hn, ht, h => by
    show XPost Any _ (C.bind (Machine.generate n format) _ m)
    have hg := playing_generate h.playing n format
    have hw : 0 ≤ m.wantedBlocks n format := by
      have h1 : 0 ≤ shr n (Machine.blockShift m.info.channels format) := by
        unfold shr
        exact Int.ediv_nonneg (hn n (by simp)) (Int.pow_nonneg (by decide))
      unfold Machine.wantedBlocks
      dsimp only
      split
      · rename_i hd
        have := ht hd
        split <;> omega
      · exact h1
    have key : XPost Any (fun r => ∃ fs', Played q0 told ntsc format fs' (bytes ++ r.1.1) r.2) (Machine.generate n format m) := by
      rw [generate_eq]
      split
      · exact ⟨fs, by show Played q0 told ntsc format fs (bytes ++ []) m; rw [List.append_nil]; exact h⟩
      · have hk := played_generateLoop ((m.wantedBlocks n format).toNat + 3) m (m.wantedBlocks n format) fs bytes hw h
        generalize Machine.generateLoop format ((m.wantedBlocks n format).toNat + 3) (m.wantedBlocks n format) m = x at hk
        cases x with
        | error e => trivial
        | ok r => exact hk
    unfold C.bind
    cases hx : Machine.generate n format m with
    | error e => trivial
    | ok r =>
      rw [hx] at hg key
      obtain ⟨⟨new, len⟩, m1⟩ := r
      obtain ⟨fs1, h1⟩ := key
      dsimp only at h1 ⊢
      have ht1 : InTime m1 := by
        intro hd
        obtain ⟨k, -, k1, -, k2, -, -⟩ := hg.count
        have e1 : m1.duration = m.duration := hg.duration
        have e2 : m1.rate = m.rate := hg.rate
        have e3 : m1.played = m.played + k := k1
        rw [e1] at hd
        have h2 := ht hd
        rw [e1, e2, e3]
        unfold Machine.wantedBlocks at k2
        dsimp only at k2
        rw [if_pos hd] at k2
        split at k2 <;> omega
      show XPost Any _ (C.bind (Spec.Sound.takes format ns) _ m1)
      have hrec := played_takes ns m1 fs1 (bytes ++ new) (fun k hk => hn k (by simp [hk])) ht1 h1
      unfold C.bind
      cases hy : Spec.Sound.takes format ns m1 with
      | error e => trivial
      | ok s =>
        rw [hy] at hrec
        obtain ⟨fs2, h2⟩ := hrec
        refine ⟨fs2, ?_⟩
        show Played q0 told ntsc format fs2 (bytes ++ (new ++ s.1)) s.2
        rw [← List.append_assoc]
        exact h2

end Asap

namespace Asap
open Machine (frameCycles)
open Spec (PairEvent)
open Spec.Sound (Tape Frame allStamps total samplesAt wanted heard)

theorem loud_sub {e : PairEvent} : ∀ {es : List PairEvent}, e ∈ es → ∀ s ∈ loud [e], s ∈ loud es
  | [], h => nomatch h
  | d :: es, h => by
    have e1 : loud (d :: es) = loud [d] ++ loud es := loud_append [d] es
    intro s hs
    rw [e1]
    rcases List.mem_cons.1 h with rfl | h
    · exact List.mem_append.2 (Or.inl hs)
    · exact List.mem_append.2 (Or.inr (loud_sub h s hs))

section
variable {z : Spec.Sound.Noise} {factor : Int} {sinc : Int → Int → Int} {mine : PairEvent → Bool}

theorem hear_events : ∀ (es : List PairEvent) (v : Tape), (∀ e ∈ es, Driven e) →
    (loud es).foldl (Tape.hear z factor sinc mine) v = es.foldl (Tape.event z factor sinc mine) v
  | [], _, _ => rfl
  | e :: es, v, h => by
    have hr := fun w => hear_events es w fun e he => h e (by simp [he])
    have hd := h e (by simp)
    cases e with
    | write a d c => exact hr _
    | external r c k => exact hr _
    | irq _ _ _ => exact hr _
    | _ => exact hd.elim

theorem hear_frames : ∀ (fs : List Frame) (v : Tape), (∀ f ∈ fs, ∃ es, f.events = es ++ [.timers f.length] ∧ ∀ e ∈ es, Driven e) →
    (loud (fs.flatMap Frame.events)).foldl (Tape.hear z factor sinc mine) v = v.play z factor sinc mine fs
  | [], _, _ => rfl
  | f :: fs, v, h => by
    obtain ⟨es, h1, h2⟩ := h f (by simp)
    rw [List.flatMap_cons, loud_append, List.foldl_append, hear_frames fs _ fun g hg => h g (by simp [hg])]
    show Tape.play z factor sinc mine ((loud f.events).foldl _ v) fs =
      Tape.play z factor sinc mine ((f.events.foldl (Tape.event z factor sinc mine) v).finish z factor sinc f.length) fs
    rw [h1, loud_append, List.foldl_append, List.foldl_append, hear_events es v h2]
    rfl

theorem learn_events : ∀ (es : List PairEvent) (v : Tape), (∀ e ∈ es, Opening e) → (∀ s ∈ loud es, Spec.Sound.Quiet s) →
    (loud es).foldl (Tape.learn mine) v = es.foldl (Tape.prepare mine) v
  | [], _, _, _ => rfl
  | e :: es, v, h, k => by
    have hr := fun w => learn_events es w (fun e he => h e (by simp [he])) fun s hs =>
      k s (by rw [show e :: es = [e] ++ es from rfl, loud_append]; exact List.mem_append.2 (Or.inr hs))
    have hd := h e (by simp)
    cases e with
    | write a d c => exact hr _
    | external r c x => exact (k (.step r c x) (by simp [loud])).elim
    | irq _ _ _ => exact hr _
    | timers _ => exact hr _
    | read _ _ => rcases hd with hd | ⟨_, hd⟩; exact hd.elim; cases hd
    | start => rcases hd with hd | ⟨_, hd⟩; exact hd.elim; cases hd
    | finish _ => rcases hd with hd | ⟨_, hd⟩; exact hd.elim; cases hd
    | mute _ => rcases hd with hd | ⟨_, hd⟩; exact hd.elim; cases hd
    | generate _ _ => rcases hd with hd | ⟨_, hd⟩; exact hd.elim; cases hd

/-- What happens while a song is started. -/
theorem opening_init {es : List PairEvent} (h : ∀ e ∈ es, Opening e) (k : ∀ s ∈ loud es, Spec.Sound.Quiet s) :
    ∀ e ∈ es, Spec.Sound.InInit e ∧ e.Within (312 * 114 + 34) := by
  intro e he
  have hl := loud_sub he
  rcases h e he with hd | ⟨n, rfl⟩
  · cases e with
    | write a d c => exact ⟨k (.write a d c) (hl _ (by simp [loud])), hd⟩
    | external r c x => exact (k (.step r c x) (hl _ (by simp [loud]))).elim
    | irq _ _ _ => exact ⟨trivial, trivial⟩
    | _ => exact hd.elim
  · exact ⟨trivial, trivial⟩

/-- The frames of a playback meet the conditions of the theorem about frames. -/
theorem Played.orderly {q0 : Pair} {told : List Signal} {ntsc : Bool} {format : SampleFormat} {fs : List Frame} {bytes : List Int} {m : Machine}
    (h : Played q0 told ntsc format fs bytes m) (k : ∀ s ∈ loud (fs.flatMap Frame.events), Spec.Sound.Usual s) :
    Spec.Sound.Orderly q0.factor format fs ∧ heard q0.factor fs = m.played := by
  have hf := frameCycles_range ntsc
  have hin : ∀ f ∈ fs, ∀ e ∈ f.events, Spec.Sound.InFrame e ∧ e.Within (312 * 114 + 34) := by
    intro f hf e he
    have hl : ∀ s ∈ loud [e], s ∈ loud (fs.flatMap Frame.events) := loud_sub (List.mem_flatMap.2 ⟨f, hf, he⟩)
    obtain ⟨-, es, h1, h2⟩ := h.shape f hf
    rw [h1] at he
    rcases List.mem_append.1 he with he | he
    · have hd := h2 e he
      cases e with
      | write a d c => exact ⟨k (.write a d c) (hl _ (by simp [loud])), hd⟩
      | external r c x => exact ⟨trivial, hd⟩
      | irq _ _ _ => exact ⟨trivial, trivial⟩
      | _ => exact hd.elim
    · rw [List.mem_singleton.1 he]
      exact ⟨trivial, trivial⟩
  refine ⟨⟨fun f hf e he => (hin f hf e he).1, fun f hf e he => ?_, fun f hm e he => ?_, h.order, ?_⟩, ?_⟩
  · obtain ⟨n, h1, rfl⟩ := h.after f hf e he
    exact ⟨h1, rfl⟩
  · rcases List.mem_append.1 he with he | he
    · rcases List.mem_cons.1 he with rfl | he
      · trivial
      · exact (hin f hm e he).2
    · rcases List.mem_cons.1 he with rfl | he
      · have := (h.shape f hm).1
        show 0 ≤ f.length ∧ f.length ≤ 312 * 114 + 34
        omega
      · obtain ⟨n, -, rfl⟩ := h.after f hm e he
        trivial
  · cases h.offer with
    | nothing => trivial
    | frame gs f o1 o2 o3 o4 o5 o6 =>
      rw [List.dropLast_concat]
      exact o6
  · cases h.offer with
    | nothing _ _ z3 => exact z3.symm
    | frame gs f o1 o2 o3 o4 o5 o6 =>
      unfold heard
      rw [List.getLast?_concat, List.dropLast_concat, Sound.total_append]
      show min (samplesAt q0.factor (total gs + (f.length + 0))) (samplesAt q0.factor (total gs) + wanted f.output) = _
      rw [Int.add_zero f.length]
      omega

end
end Asap
