import Verif.Lemmas.ServerUpload
/-! SendObject at the server. -/
namespace Mtp
open Spec
namespace Server

theorem take_all {α : Type} (l : List (List α)) (k : Nat) (h : l.flatten.length ≤ (l.take k).flatten.length) :
    (l.take k).flatten = l.flatten := by
  have e : (l.take k).flatten ++ (l.drop k).flatten = l.flatten := by rw [← List.flatten_append, List.take_append_drop]
  have h2 := congrArg List.length e
  rw [List.length_append] at h2
  have h3 : (l.drop k).flatten = [] := List.length_eq_zero_iff.mp (by omega)
  rw [h3, List.append_nil] at e
  exact e

theorem writeData_last (s : FStore) (io : FileIO) (h : Nat) (d : List UInt8) (f l : Bool) :
    s.writeData io h (some d) f l = s.writeData io h (some d) f false := by cases l <;> rfl

theorem write_taken {s : Server} {h : Nat} {it : Item} (e : s.tree.get h = some it) (hn : it.fmt ≠ ASSOC) (hw : Willing s)
    (b : List UInt8) (hb : b.length < 2 ^ 31) (f l : Bool) : (s.write h (some b) f l).2 = .ok := by
  rw [write_eq_some e, writeData_last]
  have hv := view_item s h
  rw [e] at hv
  have hio : s.ioFor h = s.ios s.calls 0 := by unfold ioFor; rw [e]; simp only [if_neg hn]
  rw [hio]
  obtain ⟨w1, _, w3, _⟩ := hw s.calls 0
  exact writeData_noerr _ _ _ _ _ _ hv (fun _ => w1) (fun hm => w3 _ hm rfl) hb

/-- A SendObject transaction. -/
theorem send_object (r : Rsp Server) (ho : Open r) (hok : ServerOk r.dev) (hh : Honest r.dev) (q : List UInt8)
    (hq : Asking q 0x100D) (h n : Nat) (it : Item) (hg : r.dev.tree.get h = some it) (hn : it.fmt ≠ ASSOC) (ha : Spec.Announced r h n)
    (bs : List (List UInt8)) (hne : bs ≠ []) (hb : ∀ b ∈ bs.head?, 12 ≤ b.length) :
    ∃ (r' : Rsp Server) (c : Resp), Answered r r' (sendObject q bs) q c [] ∧ Edited r.dev r'.dev h ∧
      r'.sendSeq = none ∧ r'.propList = none ∧
      (c = .ok → ∃ k, contents r'.dev h = some ((bodies true bs).take k).flatten ∧
        n ≤ ((bodies true bs).take k).flatten.length ∧ (∃ m, r'.dev.infoOf h = (.ok, { (r.dev.infoOf h).2 with captureDate := r.dev.times.stamp m (r.dev.infoOf h).2.modDate, modDate := r.dev.times.stamp m (r.dev.infoOf h).2.modDate })) ∧
        r'.dev.dataFile = none) ∧
      (Willing r.dev → (∀ b ∈ bs, b.length < 2 ^ 31) → n ≤ (bodies true bs).flatten.length →
        (bodies true bs).flatten.length < 2 ^ 32 → c = .ok) := by
  obtain ⟨r1, e1, g, kk, o⟩ := Rsp.accept_going dev r q h n ho.idle ho.ready ho.session hq.tid hq.code ha
  have hgF : ∀ d, Edited r.dev d h → d.tree.get h = some it := fun d e => by rw [e.tree]; exact hg
  obtain ⟨r', c, k, e, v, p0, p1, p2⟩ := Rsp.upload_inv dev q h n (fun d => d = r.dev) (fun d => Edited r.dev d h)
    (Loaded r.dev h (String.ofList it.path))
    (fun d acc => contents d h = some acc ∧ d.dataFile = none ∧ (∃ n, ∀ o, AMap.get r.dev.infos h = some o →
      AMap.get d.infos h = some { o with captureDate := r.dev.times.stamp n o.modDate, modDate := r.dev.times.stamp n o.modDate }))
    (fun d b l hd => by
      subst hd
      exact ⟨write_first_edited hok hg b l, fun h => write_loaded_first hok hg b l h⟩)
    (fun d b l acc hd hp => ⟨hd.trans (write_edited hd.ok (hgF d hd) _ _ _ hd.mine),
      fun h => write_loaded (hgF d hd) b l hp h⟩)
    (fun d hd => hd.trans (write_edited hd.ok (hgF d hd) _ _ _ hd.mine))
    (fun d hd => hd.trans (truncate_edited hd.ok (hgF d hd) _ hd.mine))
    (fun d ds hd => hd) (fun d ds acc hp => hp)
    (fun d acc hd hp => by
      obtain ⟨c1, c2, c3⟩ := close_loaded (hgF d hd) hn (fun a b => by rw [hd.ios]; exact hh a b) hp
      exact ⟨c1, c2, d.calls + 1, fun o ho => by rw [← hd.times]; exact c3 o ho⟩)
    bs hne r1 true 0 [] g (fun _ => ⟨kk.dev, rfl⟩) (by simp) (fun _ => hb)
  refine ⟨r', c, ⟨?_, ⟨u16 (cTid q), by unfold u16; omega, by rw [v.out, o]⟩,
    ⟨v.st, v.req, (v.ready.trans kk.ready).trans ho.ready, by rw [v.session.trans kk.session]; exact ho.session⟩⟩, p0,
    v.sendSeq, v.propList, ?_, ?_⟩
  · simp only [sendObject, Rsp.run, Rsp.step, e1, Res.bind_ok]; exact e
  · intro hc
    obtain ⟨a1, a2, a3, a4⟩ := p1 hc
    refine ⟨k, by simpa using a2, by simpa using a1, ?_, a3⟩
    obtain ⟨m, a4⟩ := a4
    have hk := hok.known h
    rw [has_iff.mpr ⟨_, hg⟩] at hk
    obtain ⟨o, eo⟩ := Option.isSome_iff_exists.mp hk
    refine ⟨m, ?_⟩
    unfold infoOf
    rw [p0.tree, hg, eo, a4 o eo]
  · intro hw hbl h1 h2
    refine p2 (fun d b f l hd hm => ?_) (by simpa using h1) (by simpa using h2)
    have hb' : b.length < 2 ^ 31 := by
      have key : ∀ (bs : List (List UInt8)) (f : Bool), (∀ b ∈ bs, b.length < 2 ^ 31) → ∀ b ∈ bodies f bs, b.length < 2 ^ 31 := by
        intro bs
        induction bs with
        | nil => intro f _ b hb; exact (nomatch hb)
        | cons a bs ih =>
          intro f hl b hb
          simp only [bodies, List.mem_cons] at hb
          rcases hb with rfl | hb
          · have := hl a (by simp)
            split
            · rw [List.length_drop]; omega
            · exact this
          · exact ih false (fun b hb => hl b (by simp [hb])) b hb
      exact key bs true hbl b hm
    rcases hd with rfl | hd
    · exact write_taken hg hn hw b hb' f l
    · exact write_taken (hgF d hd) hn (fun a b => by rw [hd.ios]; exact hw a b) b hb' f l

end Server
end Mtp
