import Verif.Lemmas.PoleHolds
import Verif.Spec.Reading

/-!
# Lemmas about reading a stream byte by byte
-/

namespace Fileid.Pole

open Spec

/-- The cache is empty or holds bytes of the stream. -/
structure CacheOf (s : WStream) (bytes : Bytes) : Prop where
  length : s.cache_data.length = 4096
  fits : s.cache_pos + s.cache_size ≤ bytes.length
  bytes : ∀ k, k < s.cache_size → s.cache_data[k]? = (bytes[s.cache_pos + k]?).map some

theorem has_drop {c : Contents} {i : Nat} {bytes : Bytes} (h : c.Has i 0 bytes) (pos n : Nat) : c.Has i pos ((bytes.drop pos).take n) := by
  intro k v hk
  have := h (pos + k) v (by
    rw [List.getElem?_take] at hk
    split at hk
    · rwa [List.getElem?_drop] at hk
    · cases hk)
  rwa [Nat.zero_add] at this

theorem readCalls_spec {w : Writer} {L : Layout} {c : Contents} (H : Holds w L c) {e : DirEntry} {bytes : Bytes}
    (h64 : bytes.length + 4096 < 2 ^ 64) (cs : List ReadCall) : ∀ (s : WStream), w.io.dirtree[s.idx]? = some e → IsStream e →
    s.blocks = L.chain s.idx → c.size s.idx = bytes.length → c.Has s.idx 0 bytes → s.pos < 2 ^ 64 → CacheOf s bytes →
    ReadsSensibly bytes s.pos cs → s.readCalls w cs = .ok (readReplies bytes s.pos cs) := by
  induction cs with
  | nil => intros; rfl
  | cons q cs ih =>
    intro s he hs hb hsz hk hp hc hr
    have hes : e.size = bytes.length := by rw [(H.entry s.idx e he hs).1, hsz]
    unfold WStream.readCalls
    cases q with
    | seek pos =>
      obtain ⟨h1, h2⟩ := hr
      have := ih (s.seek pos) he hs hb hsz hk h1 ⟨hc.length, hc.fits, hc.bytes⟩ h2
      simp only [WStream.readCall, Res.bind_ok]
      rw [this]
      rfl
    | read n =>
      obtain ⟨h1, h2, h3⟩ := hr
      have hlen : ((bytes.drop s.pos).take n).length = min n (bytes.length - s.pos) := by rw [List.length_take, List.length_drop]
      have hn : (newMem n).length = n := by unfold newMem; exact List.length_replicate
      have g := readAt_holds H he hs hb s.pos n (newMem n) ((bytes.drop s.pos).take n) h2 (by omega) (by rw [hlen, hsz]) (by rw [hn]; omega)
        (has_drop hk _ _)
      have hu : u64 (s.pos + ((bytes.drop s.pos).take n).length) = s.pos + ((bytes.drop s.pos).take n).length := by
        unfold u64
        exact Nat.mod_eq_of_lt (by omega)
      have := ih { s with pos := s.pos + ((bytes.drop s.pos).take n).length } he hs hb hsz hk (by dsimp only; omega)
        ⟨hc.length, hc.fits, hc.bytes⟩ (by rw [hlen]; exact h3)
      simp only [WStream.readCall, WStream.read, g, Res.bind_ok, hu]
      rw [this, Res.bind_ok]
      simp only [readReplies]
      congr 2
      rw [List.take_append_of_le_length (by rw [List.length_map]; exact Nat.le_refl _), List.take_of_length_le (by rw [List.length_map]; exact Nat.le_refl _)]
    | getch =>
      simp only [readReplies]
      simp only [ReadsSensibly] at hr
      have heo : w.entryOf s.idx = .ok e := by unfold Writer.entryOf; rw [he]
      simp only [WStream.readCall, WStream.getch, heo, Res.bind_ok]
      by_cases hend : s.pos ≥ e.size
      · rw [if_pos hend]
        have hlt : ¬ s.pos < bytes.length := by omega
        rw [if_neg hlt] at hr
        rw [if_neg hlt]
        have := ih s he hs hb hsz hk hp hc hr
        simp only [Res.bind_ok]
        rw [this, Res.bind_ok, List.getElem?_eq_none (by omega)]
      · rw [if_neg hend]
        have hlt : s.pos < bytes.length := by omega
        rw [if_pos hlt] at hr
        rw [if_pos hlt]
        -- what is done with a cache that holds the position
        have finish : ∀ t : WStream, t.idx = s.idx → t.blocks = s.blocks → t.pos = s.pos → CacheOf t bytes → t.cache_pos ≤ s.pos →
            s.pos < t.cache_pos + t.cache_size →
            ((if t.cache_size = 0 then .ok (none, t)
              else do
                let b ← mrd t.cache_data (t.pos - t.cache_pos)
                .ok (some b, { t with pos := u64 (t.pos + 1) }) : Res (Option UInt8 × WStream)) =
              .ok (bytes[s.pos]?, { t with pos := s.pos + 1 })) := by
          intro t _ _ h3 hct h4 h5
          rw [if_neg (by omega), h3]
          have h6 := hct.bytes (s.pos - t.cache_pos) (by omega)
          rw [show t.cache_pos + (s.pos - t.cache_pos) = s.pos from by omega] at h6
          have h7 : s.pos < bytes.length := by omega
          rw [List.getElem?_eq_getElem h7] at h6 ⊢
          have : u64 (s.pos + 1) = s.pos + 1 := by unfold u64; exact Nat.mod_eq_of_lt (by omega)
          unfold mrd
          rw [h6]
          simp only [Option.map_some, Res.bind_ok, this]
        have go : ∀ t : WStream, t.idx = s.idx → t.blocks = s.blocks → CacheOf t bytes →
            (({ t with pos := s.pos + 1 } : WStream).readCalls w cs) = .ok (readReplies bytes (s.pos + 1) cs) := by
          intro t h1 h2 h3
          exact ih { t with pos := s.pos + 1 } (by dsimp only; rw [h1]; exact he) hs (by dsimp only; rw [h1, h2]; exact hb)
            (by dsimp only; rw [h1]; exact hsz) (by dsimp only; rw [h1]; exact hk) (by dsimp only; omega) ⟨h3.length, h3.fits, h3.bytes⟩ hr
        have hfit := hc.fits
        have hu : u64 (s.cache_pos + s.cache_size) = s.cache_pos + s.cache_size := by unfold u64; exact Nat.mod_eq_of_lt (by omega)
        rw [hu]
        by_cases hcache : s.cache_size = 0 ∨ s.pos < s.cache_pos ∨ s.pos ≥ s.cache_pos + s.cache_size
        · rw [if_pos hcache]
          have hcp : s.pos - s.pos % 4096 ≤ s.pos := Nat.sub_le _ _
          have hmod : s.pos % 4096 < 4096 := Nat.mod_lt _ (by omega)
          have hcp2 : s.pos < s.pos - s.pos % 4096 + 4096 := by omega
          unfold WStream.updateCache
          simp only [heo, Res.bind_ok]
          have hu2 : u64 (s.pos - s.pos % 4096 + 4096) = s.pos - s.pos % 4096 + 4096 := by unfold u64; exact Nat.mod_eq_of_lt (by omega)
          rw [hu2, hes]
          generalize hcpe : s.pos - s.pos % 4096 = cp at hcp hcp2
          have hbytes : (if cp + 4096 > bytes.length then sub64 bytes.length cp else 4096) = min 4096 (bytes.length - cp) := by
            split
            · unfold sub64
              omega
            · omega
          rw [hbytes]
          have hlen : ((bytes.drop cp).take (min 4096 (bytes.length - cp))).length = min 4096 (bytes.length - cp) := by
            rw [List.length_take, List.length_drop]; omega
          rw [readAt_holds H he hs hb cp _ s.cache_data ((bytes.drop cp).take (min 4096 (bytes.length - cp))) (by omega) (by omega)
            (by rw [hlen, hsz]; omega) (by rw [hlen, hc.length]; omega) (has_drop hk _ _)]
          simp only [Res.bind_ok, hlen]
          have hct : CacheOf { s with cache_pos := cp, cache_size := min 4096 (bytes.length - cp), cache_data :=
              ((bytes.drop cp).take (min 4096 (bytes.length - cp))).map some ++ s.cache_data.drop (min 4096 (bytes.length - cp)) } bytes := by
            refine ⟨?_, ?_, fun k hk => ?_⟩
            · dsimp only
              rw [List.length_append, List.length_map, hlen, List.length_drop, hc.length]
              omega
            · dsimp only; omega
            · dsimp only at hk ⊢
              rw [List.getElem?_append_left (by rw [List.length_map, hlen]; exact hk), List.getElem?_map, List.getElem?_take, if_pos hk,
                List.getElem?_drop]
          have hf := finish _ (by rfl) (by rfl) (by rfl) hct (by dsimp only; exact hcp) (by dsimp only; omega)
          rw [hf]
          simp only [Res.bind_ok]
          rw [go _ (by rfl) (by rfl) hct, Res.bind_ok]
        · rw [if_neg hcache]
          have hf := finish s rfl rfl rfl hc (by omega) (by omega)
          rw [hf]
          simp only [Res.bind_ok]
          rw [go s rfl rfl hc, Res.bind_ok]

end Fileid.Pole
