import Verif.Proofs.Threads
/-!
# Two threads in `sha256_shani`
-/

namespace Mammon.X86
open Spec.SHA256

/-! ## Hash values are determined by their bytes -/

theorem wordBytes_inj {x y : Word} (h : wordBytes x = wordBytes y) : x = y := by
  simp only [wordBytes, beBytes, List.range, List.range.loop, List.map_cons, List.map_nil, List.cons.injEq, and_true] at h
  obtain ⟨h0, h1, h2, h3⟩ := h
  replace h0 := congrArg BitVec.toNat h0
  replace h1 := congrArg BitVec.toNat h1
  replace h2 := congrArg BitVec.toNat h2
  replace h3 := congrArg BitVec.toNat h3
  simp only [BitVec.toNat_ofNat] at h0 h1 h2 h3
  have hx := x.isLt
  have hy := y.isLt
  apply BitVec.eq_of_toNat_eq
  omega

theorem length_wordBytes (x : Word) : (wordBytes x).length = 4 := by simp [wordBytes, beBytes]

theorem bytes_inj {x y : HV} (h : x.bytes = y.bytes) : x = y := by
  simp only [HV.bytes] at h
  have hl : ∀ a b : List Byte, ∀ v w : Word, a ++ wordBytes v = b ++ wordBytes w → a = b ∧ v = w := by
    intro a b v w h
    obtain ⟨h1, h2⟩ := List.append_inj' h (by rw [length_wordBytes, length_wordBytes])
    exact ⟨h1, wordBytes_inj h2⟩
  obtain ⟨h, e8⟩ := hl _ _ _ _ h
  obtain ⟨h, e7⟩ := hl _ _ _ _ h
  obtain ⟨h, e6⟩ := hl _ _ _ _ h
  obtain ⟨h, e5⟩ := hl _ _ _ _ h
  obtain ⟨h, e4⟩ := hl _ _ _ _ h
  obtain ⟨h, e3⟩ := hl _ _ _ _ h
  obtain ⟨h, e2⟩ := hl _ _ _ _ h
  exact HV.ext (wordBytes_inj h) e2 e3 e4 e5 e6 e7 e8

theorem add_left_inj {x y z : HV} (h : x.add y = x.add z) : y = z := by
  simp only [HV.add, HV.mk.injEq, BitVec.add_right_inj] at h
  exact HV.ext h.1 h.2.1 h.2.2.1 h.2.2.2.1 h.2.2.2.2.1 h.2.2.2.2.2.1 h.2.2.2.2.2.2.1 h.2.2.2.2.2.2.2

/-! ## One thread at a time -/

theorem merge_merge (a b : Mem) : merge a (merge b a) = a := by
  funext r; simp only [merge]; split <;> rfl

theorem see_leave (g : Mem) (q : Pos) : q.see (q.leave g) = q := by
  cases q <;> simp only [Pos.see, Pos.leave, merge_merge]

theorem leave_leave (g : Mem) (q q' : Pos) (h : q' ≠ .fail) : q'.leave (q.leave g) = q'.leave g := by
  have hm : ∀ a b c : Mem, merge (merge a b) c = merge a c := by
    intro a b c; funext r; simp only [merge]; split <;> rfl
  cases q' with
  | fail => exact absurd rfl h
  | done s => cases q <;> simp only [Pos.leave, hm]
  | «at» a b c s => cases q <;> simp only [Pos.leave, hm]

/-- Thread `i` executes `k + 1` instructions on its own. -/
theorem run_alone {ι : Type} [DecidableEq ι] (env : ι → Env) (code : Label → Block) (i : ι) : ∀ (k : Nat) (p : Process ι) (q : Pos),
    ticks (env i) code (k + 1) ((p.pos i).see p.shared) = q → q ≠ .fail →
    p.run env code (List.replicate (k + 1) i) = { pos := upd p.pos i q, shared := q.leave p.shared }
  | 0, p, q, h, _ => by
    subst h; rfl
  | k + 1, p, q, h, hq => by
    rw [List.replicate_succ, Process.run]
    have e : (p.tick env code i).pos i = tick (env i) code ((p.pos i).see p.shared) := upd_same _ _ _
    have e2 : (p.tick env code i).shared = ((p.tick env code i).pos i).leave p.shared := by rw [e]; rfl
    rw [run_alone env code i k (p.tick env code i) q (by rw [e2, see_leave, e]; exact h) hq]
    congr 1
    · funext j
      simp only [Process.tick, upd]
      split <;> rfl
    · rw [e2, leave_leave _ _ _ hq]

theorem run_append {ι : Type} [DecidableEq ι] (env : ι → Env) (code : Label → Block) : ∀ (a b : List ι) (p : Process ι),
    p.run env code (a ++ b) = (p.run env code a).run env code b
  | [], _, _ => rfl
  | i :: a, b, p => run_append env code a b (p.tick env code i)


/-! ## Pieces of a call -/

open Shani in
/-- From the entry to the two-block path. -/
theorem to_two {env : Env} {s : State} {t ii oo n : Nat} (E : Entry env 0 t ii oo n env.retAddr s) (hdx : s.r .rdx = BitVec.ofNat 64 n) (hn : 2 ≤ n)
    (hn' : n < 2 ^ 63) : ∃ s', Reaches env code (.run .shani [] s) (.run .shaniTwo [] s') ∧ SInv env ii oo 0 n s s' := by
  obtain ⟨s1, q1, h1⟩ := entry_spec E.toCalled hdx
  have r1 : Reaches env code (.run .shani [] s) (.run .shaniLoop [] s1) :=
    Reaches.one (advance_run (b := entry) (tm := .goto .shaniLoop) rfl q1 h1.fault)
  have r2 : Reaches env code (.run .shaniLoop [] s1) (.run .shaniTwo [] (step env s1 (.cmpImm NUM_BLKS 2))) := by
    refine Reaches.one ((advance_run (b := [.cmpImm NUM_BLKS 2]) (tm := .jl .shaniTail .shaniTwo) rfl rfl h1.fault).trans ?_)
    refine (finish_jl_cmp env [] s1 NUM_BLKS 2 _ _).trans ?_
    rw [h1.rdx, Four.slt_ofNat (by omega) (by decide)]
    simp only [decide_eq_true_eq, Nat.sub_zero]
    rw [if_neg (by omega)]
  exact ⟨_, r1.trans r2, h1.congr rfl rfl rfl rfl⟩

open Shani in
/-- From the head of the loop to the return, from any state in which the registers have their meanings. -/
theorem from_loop {env : Env} {s : State} {t p q m : Nat} (R : Ready env p s) (hf : s.fault = false) (hdi : s.r OUTPUT_PTR = env.ptr .output q)
    (hdx : s.r NUM_BLKS = BitVec.ofNat 64 m) (hm : m < 2 ^ 63) (hin : p + 64 * m ≤ env.size .input) (hout : q + 32 * m ≤ env.size .output)
    (hsp : s.r .rsp = env.ptr .stack t) (ht : t + 8 ≤ env.size .stack)
    (hret : of64 (fun l => readWord (s.mem .stack) (t + 4 * l)) = env.retAddr) (hw : env.writable .shaniRw = true) :
    ∃ s', Reaches env code (.run .shaniLoop [] s) (.done s') ∧ (∀ r, r ≠ .output → r ≠ .shaniRw → s'.mem r = s.mem r) ∧
      ∀ i, i < q → s'.mem .output i = s.mem .output i := by
  have E : Called env 0 t p q m (retTo env []) s :=
    ⟨R.valid, R.loaded, hf, hsp, Nat.zero_le _, ht, hret, hdi, R.rsi, hin, hout⟩
  obtain ⟨s', r, X, hst⟩ := shani_rest (cs := []) E hm (fun r hr => by
      rw [owned] at hr
      split at hr
      · cases hr
      · rw [List.mem_singleton] at hr
        rw [hr]; exact hw) (s1 := s)
    ⟨hf, Nat.zero_le _, R, hdi, hdx, fun _ _ => rfl, fun _ _ _ => rfl, fun _ _ => rfl, fun l hl => absurd hl (by omega), fun j hj => absurd hj (by omega)⟩
  refine ⟨s', r.reaches, fun r a b => ?_, fun i hi => X.output i (.inl hi)⟩
  by_cases hr : r = .stack
  · rw [hr]; exact hst
  · exact X.other r a hr (not_mem_owned m b)

/-- The digest in terms of the words in memory. -/
theorem sha256_msg (m : Nat → Byte) (o : Nat) : sha256 (bytesAt m o 64) = (compress (compress H0 (msg m o)) padBlock).bytes := by
  rw [sha256_64 _ (length_bytesAt _ _ _)]
  rw [compress_congr (m := fun t => wordAt (bytesAt m o 64) (4 * t)) (m' := msg m o) fun t ht => wordAt_bytesAt ht]

/-- The calls have the same view of the shared memory. -/
theorem see_eq {g : Mem} {s : State} (h : ∀ r, r.shared = true → s.mem r = g r) : merge s.mem g = s.mem := by
  funext r
  simp only [merge]
  split
  · rename_i hr; exact (h r hr).symm
  · rfl

open Shani in
/-- Other threads may change the scratch memory while a thread waits. -/
theorem Shani.Ready.see {env : Env} {p : Nat} {s u : State} (R : Ready env p s) (hm : ∀ r, r ≠ .shaniRw → u.mem r = s.mem r) (hr : u.r = s.r) (hx : u.x = s.x) :
    Ready env p u := by
  refine ⟨R.valid, R.loaded.congr fun r _ _ h => hm r h, ?_, ?_, ?_, ?_⟩
  · rw [hr]; exact R.rax
  · rw [hr]; exact R.rcx
  · rw [hr]; exact R.rsi
  · rw [hx]; exact R.flip

/-- What a waiting thread sees when only the scratch memory has been changed. -/
theorem see_state {g g0 : Mem} {s : State} (h : ∀ r, r.shared = true → r ≠ .shaniRw → g r = g0 r) (h' : ∀ r, r.shared = true → r ≠ .shaniRw → s.mem r = g0 r) :
    ∃ u : State, { s with mem := merge s.mem g } = u ∧ (∀ r, r ≠ .shaniRw → u.mem r = s.mem r) ∧ u.mem .shaniRw = g .shaniRw ∧
      u.r = s.r ∧ u.fault = s.fault ∧ u.x = s.x := by
  refine ⟨_, rfl, fun r hr => ?_, rfl, rfl, rfl, rfl⟩
  simp only [merge]
  split
  · rename_i hs; rw [h r hs hr, h' r hs hr]
  · rfl

open Shani in
/-- Thread `a` is interrupted between saving its intermediate hash values and adding them; thread `b` hashes its first two blocks; then thread `a`
continues to its end; then thread `b` does. -/
theorem race {ι : Type} [DecidableEq ι] {a b : ι} (hab : a ≠ b) {env : ι → Env} {s : ι → State} {t ii oo n : ι → Nat}
    (E : ∀ i, Entry (env i) 0 (t i) (ii i) (oo i) (n i) (env i).retAddr (s i)) (hdx : ∀ i, (s i).r .rdx = BitVec.ofNat 64 (n i))
    (h2 : 2 ≤ n a ∧ 2 ≤ n b) (hw : ∀ i, (env i).writable .shaniRw = true) {g : Mem} (hg : ∀ i r, r.shared = true → (s i).mem r = g r)
    (hd : sha256 (bytesAt ((s a).mem .input) (ii a) 64) ≠ sha256 (bytesAt ((s b).mem .input) (ii b) 64)) :
    ∃ (sched : List ι) (sa sb : State), (Process.run env code sched ⟨fun i => Pos.ofConf code (.run .shani [] (s i)), g⟩).pos a = .done sa ∧
      (Process.run env code sched ⟨fun i => Pos.ofConf code (.run .shani [] (s i)), g⟩).pos b = .done sb ∧
      bytesAt (sa.mem .output) (oo a) 32 ≠ sha256 (bytesAt ((s a).mem .input) (ii a) 64) := by
  have hin := fun i => (E i).input
  have hout := fun i => (E i).output
  have hlt : ∀ i, n i < 2 ^ 63 := fun i => by
    have h1 := (E i).input
    have h2 := (E i).valid.fits .input
    omega
  -- thread `a` up to the middle of the two-block path
  obtain ⟨s1, r1, h1⟩ := to_two (E a) (hdx a) h2.1 (hlt a)
  have o1 : ∀ r, r ≠ .output → r ≠ .shaniRw → s1.mem r = (s a).mem r := fun r x y => h1.other r x (not_mem_owned _ y)
  obtain ⟨s2, q2, F⟩ := front_spec h1.ready (by have := hin a; have := h2.1; omega) (hw a)
  obtain ⟨k1, t1⟩ := ticks_reaches r1 (by simp)
  have t2 := ticks_exec (env a) code twoRear (.goto .shaniLoop) [] twoFront s1 (by rw [q2]; exact F.fault.trans h1.fault)
  rw [q2, ← two_eq] at t2
  have t2 : ticks (env a) code twoFront.length (Pos.ofConf code (.run .shaniTwo [] s1)) = .at twoRear (.goto .shaniLoop) [] s2 := t2
  obtain ⟨n1, e1⟩ : ∃ n1, k1 + twoFront.length = n1 + 1 := ⟨k1 + (twoFront.length - 1), by
    have : 0 < twoFront.length := by simp [twoFront, load2]
    omega⟩
  have p1 := run_alone env code a n1 ⟨fun i => Pos.ofConf code (.run .shani [] (s i)), g⟩ (.at twoRear (.goto .shaniLoop) [] s2) (by
    rw [← e1, ticks_add]
    simp only [Pos.ofConf, Pos.see]
    rw [see_eq (hg a), show ({ s a with mem := (s a).mem } : State) = s a from rfl]
    exact (congrArg _ t1).trans t2) (by simp)
  have o2 : ∀ r, r ≠ .output → r ≠ .shaniRw → s2.mem r = (s a).mem r := fun r x y => (F.other r y).trans (o1 r x y)
  have hne : ∀ r : Region, r.shared = true → r ≠ .output := by rintro r hr rfl; cases hr
  -- thread `b` up to the end of its first two blocks
  obtain ⟨gb, hgb⟩ : ∃ gb, merge g s2.mem = gb := ⟨_, rfl⟩
  have hgb' : ∀ r, r.shared = true → r ≠ .shaniRw → gb r = g r := fun r hr hn => by
    rw [← hgb, merge, if_pos hr, o2 r (hne r hr) hn, hg a r hr]
  obtain ⟨u, hu, hum, -, hur, huf, -⟩ := see_state (s := s b) hgb' (fun r hr _ => hg b r hr)
  have Eb : Entry (env b) 0 (t b) (ii b) (oo b) (n b) (env b).retAddr u := by
    have e := E b
    refine ⟨⟨e.valid, e.loaded.congr fun r _ _ h => hum r h, huf.trans e.fault, ?_, e.depth, e.top, ?_, ?_, ?_, e.input, e.output⟩, e.align⟩
    · rw [hur]; exact e.rsp
    · rw [hum _ (by decide)]; exact e.ret
    · rw [hur]; exact e.rdi
    · rw [hur]; exact e.rsi
  obtain ⟨b1, rb1, hb1⟩ := to_two Eb (by rw [hur]; exact hdx b) h2.2 (hlt b)
  have ob1 : ∀ r, r ≠ .output → r ≠ .shaniRw → b1.mem r = u.mem r := fun r x y => hb1.other r x (not_mem_owned _ y)
  obtain ⟨s3, q3, d⟩ := two_spec hb1.ready hb1.rdi (by have := hin b; have := h2.2; omega) (by have := hout b; have := h2.2; omega) (hw b)
  have f3 : s3.fault = false := d.fault.trans hb1.fault
  have r3 : Reaches (env b) code (.run .shani [] u) (.run .shaniLoop [] s3) := rb1.trans (Reaches.one
    (advance_run (b := two) (tm := .goto .shaniLoop) rfl q3 f3))
  have S3 := d.saved
  rw [ob1 .input (by decide) (by decide), hum .input (by decide)] at S3
  have o3 : ∀ r, r ≠ .output → r ≠ .shaniRw → s3.mem r = (s b).mem r := fun r x y => by rw [d.other r x y, ob1 r x y, hum r y]
  have R3 : Ready (env b) (ii b + 128) s3 := by
    have e := hb1.ready
    refine ⟨e.valid, e.loaded.congr fun r _ h3 h4 => d.other r h3 h4, ?_, ?_, d.rsi, ?_⟩
    · rw [d.regs _ (by decide)]; exact e.rax
    · rw [d.regs _ (by decide)]; exact e.rcx
    · rw [d.flip]; exact e.flip
  obtain ⟨k3, t3⟩ := ticks_reaches r3 (by simp)
  obtain ⟨k3', ek3⟩ : ∃ k, k3 = k + 1 := by
    cases k3 with
    | zero =>
      exact absurd (congrArg (fun p : Pos => match p with | .at l _ _ _ => l.length | _ => 0) t3)
        (show ((code .shani).body.length : Nat) ≠ (code .shaniLoop).body.length by decide)
    | succ k => exact ⟨k, rfl⟩
  have p2 := run_alone env code b k3' ⟨upd (fun i => Pos.ofConf code (.run .shani [] (s i))) a (.at twoRear (.goto .shaniLoop) [] s2), gb⟩
    (Pos.ofConf code (.run .shaniLoop [] s3)) (by
    simp only
    rw [upd_ne _ _ (Ne.symm hab)]
    simp only [Pos.ofConf, Pos.see]
    rw [hu, ← ek3]; exact t3) (by simp [Pos.ofConf])
  -- thread `a` to its end
  obtain ⟨gc, hgc⟩ : ∃ gc, merge gb s3.mem = gc := ⟨_, rfl⟩
  have hgc' : ∀ r, r.shared = true → r ≠ .shaniRw → gc r = g r := fun r hr hn => by
    rw [← hgc, merge, if_pos hr, o3 r (hne r hr) hn, hg b r hr]
  obtain ⟨v, hv, hvm, hvs, hvr, hvf, hvx⟩ := see_state (s := s2) hgc' (fun r hr hn => by rw [o2 r (hne r hr) hn, hg a r hr])
  have Rv : Ready (env a) (ii a + 64 * 0) v := F.ready.see hvm hvr hvx
  obtain ⟨s4, q4, D⟩ := rear_spec Rv (q := oo a + 32 * 0) (by rw [hvr, F.r]; exact h1.rdi) (by have := hout a; have := h2.1; omega) (by rw [hvx]; exact F.both)
    (by rw [hvs, ← hgc]; exact S3) (hw a)
  have f4 : s4.fault = false := D.fault.trans (hvf.trans (F.fault.trans h1.fault))
  have R4 : Ready (env a) (ii a + 128) s4 := by
    refine ⟨Rv.valid, Rv.loaded.congr fun r _ h3 h4 => D.other r h3, ?_, ?_, D.rsi, ?_⟩
    · rw [D.regs _ (by decide)]; exact Rv.rax
    · rw [D.regs _ (by decide)]; exact Rv.rcx
    · rw [D.flip]; exact Rv.flip
  obtain ⟨s5, r5, o5, w5⟩ := from_loop (m := n a - 2) (t := t a) R4 f4 D.rdi (by
      rw [D.rdx, hvr, F.r, h1.rdx]; exact ofNat_sub_ofNat (b := 2) h2.1) (by have := hlt a; omega) (by have := hin a; have := h2.1; omega)
      (by have := hout a; have := h2.1; omega) (by
      rw [D.regs _ (by decide), hvr, F.r, h1.regs _ (by decide)]; exact (E a).rsp) (E a).top (by
      rw [D.other _ (by decide), hvm _ (by decide), o2 _ (by decide) (by decide)]; exact (E a).ret) (hw a)
  have t4 := ticks_exec (env a) code [] (.goto .shaniLoop) [] twoRear v (by rw [q4]; exact f4)
  rw [q4, List.append_nil] at t4
  obtain ⟨k5, t5⟩ := ticks_reaches r5 (by simp)
  have p3 := run_alone env code a (twoRear.length + k5)
    ⟨upd (upd (fun i => Pos.ofConf code (.run .shani [] (s i))) a (.at twoRear (.goto .shaniLoop) [] s2)) b (Pos.ofConf code (.run .shaniLoop [] s3)), gc⟩
    (.done s5) (by
    simp only
    rw [upd_ne _ _ hab, upd_same]
    simp only [Pos.see]
    rw [hv, Nat.add_right_comm, ticks_add, ticks_succ, t4]
    exact t5) (by simp)
  -- thread `b` to its end
  obtain ⟨gd, hgd⟩ : ∃ gd, merge gc s5.mem = gd := ⟨_, rfl⟩
  have hgd' : ∀ r, r.shared = true → r ≠ .shaniRw → gd r = g r := fun r hr hn => by
    rw [← hgd, merge, if_pos hr, o5 r (hne r hr) hn, D.other r (hne r hr), hvm r hn, o2 r (hne r hr) hn, hg a r hr]
  obtain ⟨x, hx, hxm, -, hxr, hxf, hxx⟩ := see_state (s := s3) hgd' (fun r hr hn => by rw [o3 r (hne r hr) hn, hg b r hr])
  obtain ⟨s6, r6, -, -⟩ := from_loop (m := n b - 2) (t := t b) (q := oo b + 64) (R3.see hxm hxr hxx) (hxf.trans f3) (by rw [hxr]; exact d.rdi) (by
      rw [hxr, d.rdx, hb1.rdx]; exact ofNat_sub_ofNat (b := 2) h2.2) (by have := hlt b; omega) (by have := hin b; have := h2.2; omega)
      (by have := hout b; have := h2.2; omega) (by
      rw [hxr, d.regs _ (by decide), hb1.regs _ (by decide), hur]; exact (E b).rsp) (E b).top (by
      rw [hxm _ (by decide), o3 _ (by decide) (by decide)]; exact (E b).ret) (hw b)
  obtain ⟨k6, t6⟩ := ticks_reaches r6 (by simp)
  have p4 := run_alone env code b k6
    ⟨upd (upd (upd (fun i => Pos.ofConf code (.run .shani [] (s i))) a (.at twoRear (.goto .shaniLoop) [] s2)) b (Pos.ofConf code (.run .shaniLoop [] s3))) a
      (.done s5), gd⟩ (.done s6) (by
    simp only
    rw [upd_ne _ _ (Ne.symm hab), upd_same]
    simp only [Pos.ofConf, Pos.see]
    rw [hx, ticks_succ]
    exact congrArg (tick (env b) code) t6) (by simp)
  refine ⟨List.replicate (n1 + 1) a ++ (List.replicate (k3' + 1) b ++ (List.replicate (twoRear.length + k5 + 1) a ++ List.replicate (k6 + 1) b)), s5, s6,
    ?_, ?_, ?_⟩
  · rw [run_append, run_append, run_append, p1]
    simp only [Pos.leave]
    rw [hgb, p2, show (Pos.ofConf code (.run .shaniLoop [] s3)).leave gb = merge gb s3.mem from rfl]
    rw [hgc, p3]
    simp only [Pos.leave]
    rw [hgd, p4]
    simp only
    rw [upd_ne _ _ hab, upd_same]
  · rw [run_append, run_append, run_append, p1]
    simp only [Pos.leave]
    rw [hgb, p2, show (Pos.ofConf code (.run .shaniLoop [] s3)).leave gb = merge gb s3.mem from rfl]
    rw [hgc, p3]
    simp only [Pos.leave]
    rw [hgd, p4]
    simp only
    rw [upd_same]
  · intro h
    rw [bytesAt_congr (m' := s4.mem .output) (fun i h1 h2 => w5 i (by omega)), sha256_msg,
      bytesAt_words (hv := (rounds padBlock 64 (compress H0 (msg ((s a).mem .input) (ii a)))).add (compress H0 (msg ((s b).mem .input) (ii b))))
      (fun i hi => ?_)] at h
    · have := add_left_inj (bytes_inj h)
      exact hd (by rw [sha256_msg, sha256_msg, this])
    · rw [← o1 .input (by decide) (by decide)]
      by_cases hi4 : i < 4
      · exact D.w0 i hi4
      · have := D.w1 (i - 4) (by omega)
        rw [show 4 + (i - 4) = i by omega, show oo a + 32 * 0 + 16 + 4 * (i - 4) = oo a + 4 * i by omega] at this
        exact this

end Mammon.X86
