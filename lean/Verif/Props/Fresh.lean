import Verif.Spec.Fresh
import Verif.Lemmas.Kin
import Verif.Props.Player

/-! C61: songs do not depend on what was played before. -/

namespace Asap.Props
open Asap.Spec Asap.Spec.Fresh Asap.Machine

theorem blind_answer (c : Call) : Blind False False (answer c) := by
  cases c with
  | play song duration => exact Blind.bind (blind_playSong _ _) fun _ => Blind.pure _
  | seek position => exact Blind.bind (blind_seek _) fun _ => Blind.pure _
  | seekSample block => exact Blind.bind (blind_seekSample _) fun _ => Blind.pure _
  | generate bufferLen format => exact blind_generate _ _
  | mute mask => exact Blind.bind (blind_mutePokeyChannels _) fun _ => Blind.pure _
  | detectSilence seconds =>
    exact Blind.bind (Blind.modify' (fun _ _ _ _ _ => rfl) fun _ => ⟨rfl, rfl, rfl, rfl, rfl⟩) fun _ => Blind.pure _
  | setSampleRate rate =>
    exact Blind.bind (Blind.modify' (fun _ _ _ _ _ => rfl) fun _ => ⟨rfl, rfl, rfl, rfl, rfl⟩) fun _ => Blind.pure _

/-- The rest of a call. -/
theorem blind_look (r : List Int × Int) : Blind False False (do
    let position ← C.get Machine.getPosition
    let volumes ← C.get fun m => (List.range 8).map fun i : Nat => m.channelVolume (i : Int)
    pure ⟨r.1, r.2, position, volumes⟩ : C Seen) :=
  Blind.bind (Blind.get fun _ _ _ _ _ => rfl) fun _ => Blind.bind (Blind.get fun _ _ _ _ _ => rfl) fun _ => Blind.pure _

theorem blind_watch (c : Call) : Blind False False (watch c) := Blind.bind (blind_answer c) blind_look

theorem seen_step {cs : List Call} {m n : Machine} {c : Call} (h : XLike (KinR False False) (watch c m) (watch c n))
    (ih : ∀ {m n : Machine}, Kin False False m n → seen cs n = seen cs m) : seen (c :: cs) n = seen (c :: cs) m := by
  unfold seen
  cases hx : watch c m with
  | error e =>
    cases hy : watch c n with
    | error e' => rw [hx, hy] at h; rw [show e = e' from h]
    | ok b => rw [hx, hy] at h; exact h.elim
  | ok a =>
    cases hy : watch c n with
    | error e' => rw [hx, hy] at h; exact h.elim
    | ok b =>
      rw [hx, hy] at h
      obtain ⟨a, m'⟩ := a
      obtain ⟨b, n'⟩ := b
      dsimp only
      rw [ih h.2, show a = b from h.1]

theorem seen_kin (cs : List Call) : ∀ {m n : Machine}, Kin False False m n → seen cs n = seen cs m := by
  induction cs with
  | nil => intros; rfl
  | cons c cs ih => exact fun h => seen_step ((blind_watch c).run h) ih

/-- A song depends on the module, the memory and the settings only. -/
theorem C61_song_partial (m n : Machine) (hi : n.info = m.info) (hm : n.cpu.mem = m.cpu.mem) (hs : SameSettings m n)
    (ht : m.info.type = .tmc → n.tmc = m.tmc) (song duration : Int) (calls : List Call) :
    seen (.play song duration :: calls) n = seen (.play song duration :: calls) m := by
  refine seen_step ?_ (seen_kin calls)
  have k : Machine.Kept m n := ⟨hi, hm, hs.rate, hs.silence, hs.table, hs.base, hs.extra, ht⟩
  refine kin_bind (p := False) (q := False) (f := answer (.play song duration)) ?_ fun r _ _ h => (blind_look r).run h
  exact kin_bind (p := False) (q := False) (f := playSong song duration) (kin_playSong k song duration) fun _ _ _ h => ⟨rfl, h⟩

theorem song_of {m n : Machine} (hi : n.info = m.info) (hm : n.cpu.mem = m.cpu.mem) (h1 : n.rate = m.rate) (h2 : n.silence = m.silence)
    (h3 : n.pk.sinc = m.pk.sinc) (h4 : n.pk.base.sumOut = m.pk.base.sumOut) (h5 : n.pk.extra.sumOut = m.pk.extra.sumOut)
    (ht : m.info.type = .tmc → n.tmc = m.tmc) (song duration : Int) (calls : List Call) :
    seen (.play song duration :: calls) n = seen (.play song duration :: calls) m :=
  C61_song_partial m n hi hm ⟨h1, h2, h3, h4, h5⟩ ht song duration calls

/-- SAP files sound the same in every player with the same settings: whatever was loaded, played, muted or sought before has no
influence on anything seen or heard after `Load` and `PlaySong`.  Missing (and false, see `C61_played_before`): the level where the
last song ended has no influence. -/
theorem C61_sap_partial (fuel : Nat) (filename : Option (List Nat)) (file : List Nat) (hf : IsSap fuel filename file) (m n : Machine)
    (hs : SameSettings m n) (song duration : Int) (calls : List Call) :
    visit fuel filename file song duration calls n = visit fuel filename file song duration calls m := by
  unfold visit Loader.load
  cases hi : infoLoad fuel filename file with
  | error e => rfl
  | ok info =>
    have hp : playerRoutine info = none := by
      unfold playerRoutine
      rcases hf info hi with h | h | h | h <;> rw [h]
    have hq : info.type ≠ .tmc := by
      rcases hf info hi with h | h | h | h <;> rw [h] <;> exact fun x => nomatch x
    show (Loader.loadMemory info file n >>= fun m => Except.ok (seen (.play song duration :: calls) m)) =
      (Loader.loadMemory info file m >>= fun m => Except.ok (seen (.play song duration :: calls) m))
    unfold Loader.loadMemory
    rw [hp]
    unfold Loader.loadSapBlocks
    cases Loader.loadBlocks file file.length file.length (info.headerLen + 2).toNat fun _ => 0 with
    | error e => rfl
    | ok mem =>
      show Except.ok _ = Except.ok _
      exact congrArg Except.ok (song_of (by exact rfl) (by exact rfl) (by exact hs.rate) (by exact hs.silence) (by exact hs.table) (by exact hs.base) (by exact hs.extra) (by exact fun x => (hq x).elim) song duration calls)

/-- What is loaded: the address of the player and the memory. -/
def nativePart (info : Info) (r m : List Nat) (mem : Int → Int) : M (Nat × (Int → Int)) := do
  let player ← getWord r 2
  let last ← getWord r 4
  if info.music ≤ last then raise "Module address conflicts with the player routine"
  else do
    let mem ← Loader.copyModule info m fun a => if a = 0x4c00 then 0 else mem a
    let mem ← Loader.copyTo r 6 mem player (last + 1 - player)
    .ok (player, mem)

/-- The machine with it. -/
def withNative (info : Info) (machine : Machine) (x : Nat × (Int → Int)) : Machine :=
  { machine with
    info := { info with player := if info.player < 0 then x.1 else info.player }
    cpu := { machine.cpu with mem := x.2 } }

theorem loadNative_eq (info : Info) (r m : List Nat) (machine : Machine) :
    Loader.loadNative info r m machine = (nativePart info r m machine.cpu.mem >>= fun x => .ok (withNative info machine x)) := by
  unfold Loader.loadNative nativePart
  cases getWord r 2 with
  | error e => rfl
  | ok player =>
    cases getWord r 4 with
    | error e => rfl
    | ok last =>
      dsimp only [bind, Except.bind]
      by_cases hc : info.music ≤ last
      · rw [if_pos hc, if_pos hc]; rfl
      · rw [if_neg hc, if_neg hc]
        cases Loader.copyModule info m fun a => if a = 0x4c00 then 0 else machine.cpu.mem a with
        | error e => rfl
        | ok mem =>
          dsimp only
          cases Loader.copyTo r 6 mem player (last + 1 - player) <;> rfl

/-- Modules of other formats too, if the memory was the same before (it is not cleared) and, for TMC, the counter of the player. -/
theorem C61_module_partial (fuel : Nat) (filename : Option (List Nat)) (file : List Nat) (m n : Machine)
    (hs : SameSettings m n) (hm : n.cpu.mem = m.cpu.mem) (ht : n.tmc = m.tmc) (song duration : Int) (calls : List Call) :
    visit fuel filename file song duration calls n = visit fuel filename file song duration calls m := by
  unfold visit Loader.load
  cases hi : infoLoad fuel filename file with
  | error e => rfl
  | ok info =>
    show (Loader.loadMemory info file n >>= fun m => Except.ok (seen (.play song duration :: calls) m)) =
      (Loader.loadMemory info file m >>= fun m => Except.ok (seen (.play song duration :: calls) m))
    unfold Loader.loadMemory
    cases playerRoutine info with
    | none =>
      dsimp only
      unfold Loader.loadSapBlocks
      cases Loader.loadBlocks file file.length file.length (info.headerLen + 2).toNat fun _ => 0 with
      | error e => rfl
      | ok mem =>
        show Except.ok _ = Except.ok _
        exact congrArg Except.ok (song_of (by exact rfl) (by exact rfl) (by exact hs.rate) (by exact hs.silence) (by exact hs.table) (by exact hs.base) (by exact hs.extra) (by exact fun _ => ht) song duration calls)
    | some r =>
      dsimp only
      rw [loadNative_eq, loadNative_eq, hm]
      cases nativePart info r file m.cpu.mem with
      | error e => rfl
      | ok x =>
        show Except.ok _ = Except.ok _
        exact congrArg Except.ok (song_of (by exact rfl) (by exact rfl) (by exact hs.rate) (by exact hs.silence) (by exact hs.table)
          (by exact hs.base) (by exact hs.extra) (by exact fun _ => ht) song duration calls)

end Asap.Props
