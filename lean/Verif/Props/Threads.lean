import Verif.Proofs.Hide
import Verif.Proofs.Race
import Verif.Proofs.Tso
import Verif.Props.Sha256
/-!
# Concurrent hashing: C28

Any number of threads, each in one call of a SHA-256 routine on its own input, output and stack; the data sections of the assembly files
are shared. A schedule is the list of the threads in the order in which they execute instructions; with store buffers, a list of events.
-/

namespace Mammon

open X86 Spec.SHA256

/-- The threads at the entries `call` of their routines. -/
def started {ι : Type} (call : ι → Label) (s : ι → State) (shared : Mem) : Process ι :=
  ⟨fun i => Pos.ofConf code (.run (call i) [] (s i)), shared⟩

theorem X86.Entry.perm {env : Env} {d t ii oo n : Nat} {ret : BitVec 64} {s : State} (E : Entry env d t ii oo n ret s) {w : Region → Bool}
    (h : w .output = true) (h' : w .stack = true) (hw : w .shaniRw = true → env.writable .shaniRw = true) : Entry (env.perm w) d t ii oo n ret s :=
  ⟨⟨⟨E.valid.fits, E.valid.disjoint, h, h'⟩, ⟨E.loaded.align, E.loaded.size, fun x => E.loaded.sizeRw (hw x), E.loaded.data⟩, E.fault, E.rsp,
    E.depth, E.top, E.ret, E.rdi, E.rsi, E.input, E.output⟩, E.align⟩

theorem X86.Entry.hide {env : Env} {d t ii oo n : Nat} {ret : BitVec 64} {s : State} (E : Entry env d t ii oo n ret s) {w : Region → Bool}
    (h : w .output = true) (h' : w .stack = true) (hw : w .shaniRw = false) : Entry (env.hide w) d t ii oo n ret s := by
  have hle : ∀ r, (env.hide w).size r ≤ env.size r := fun r => by
    show upd env.size .shaniRw 0 r ≤ _
    rw [upd]; split
    · exact Nat.zero_le _
    · exact Nat.le_refl _
  have hsz : ∀ r, r ≠ .shaniRw → (env.hide w).size r = env.size r := fun r hr => upd_ne _ _ hr
  refine ⟨⟨⟨fun r => Nat.lt_of_le_of_lt (Nat.add_le_add_left (hle r) _) (E.valid.fits r), fun r r' o o' a b => E.valid.disjoint r r' o o' (Nat.lt_of_lt_of_le a (hle r)) (Nat.lt_of_lt_of_le b (hle r')), h, h'⟩,
    ⟨E.loaded.align, fun r hr => ?_, fun x => absurd (hw.symm.trans x) (by decide), E.loaded.data⟩, E.fault, E.rsp, E.depth, ?_, E.ret,
    E.rdi, E.rsi, ?_, ?_⟩, E.align⟩
  · rw [hsz r (by revert r; decide)]; exact E.loaded.size r hr
  · rw [hsz _ (by decide)]; exact E.top
  · rw [hsz _ (by decide)]; exact E.input
  · rw [hsz _ (by decide)]; exact E.output

/-- What the thread that uses the scratch memory may write. -/
def strictRw (r : Region) : Bool := strict r || r == .shaniRw

theorem not_fail_of_done {env : Env} {code : Label → Block} {p : Pos} {k : Nat} {s : State} (h : ticks env code k p = .done s) (m : Nat) :
    ticks env code m p ≠ .fail := by
  intro e
  have h' : ticks env code (m + k) p = .fail := by rw [ticks_add, e, ticks_fail]
  rw [Nat.add_comm, ticks_add, h, ticks_done] at h'
  cases h'

section

variable {ι : Type} {call : ι → Label} {depth : ι → Nat} {env : ι → Env} {s : ι → State} {t ii oo n : ι → Nat} {shared : Mem}

/-- The threads of `C28_concurrent_partial` alone, with the permissions they need. -/
theorem alone (hl : ∀ i, (call i, depth i) ∈ routines)
    (E : ∀ i, Entry (env i) (depth i) (t i) (ii i) (oo i) (n i) (env i).retAddr (s i))
    (hn : ∀ i, if call i = .one then n i = 1 else (s i).r .rdx = BitVec.ofNat 64 (n i))
    (hw : ∀ i, call i = .shani → 2 ≤ n i → (env i).writable .shaniRw = true) :
    ∃ (own : ι → Bool) (s' : ι → State) (k : ι → Nat), (∀ i, own i = true ↔ call i = .shani ∧ 2 ≤ n i) ∧
      (∀ i r, strict r = true → (env i).writable r = true) ∧ (∀ i, own i = true → ∀ r, strictRw r = true → (env i).writable r = true) ∧
      (∀ i, Reaches (env i) code (.run (call i) [] (s i)) (.done (s' i)) ∧
        (∀ j, j < n i → bytesAt ((s' i).mem .output) (oo i + 32 * j) 32 = sha256 (bytesAt ((s i).mem .input) (ii i + 64 * j) 64)) ∧
        (own i = true → ticks ((env i).perm strictRw) code (k i) ((started call s shared).pos i) = .done (s' i)) ∧
        (own i = false → ∃ u g, ticks ((env i).hide strict) code (k i) ((started call s shared).pos i) = .done u ∧ s' i = u.withRw g)) ∧
      (∀ i, own i = false → ∀ m, ticks ((env i).hide strict) code m ((started call s shared).pos i) ≠ .fail) ∧
      (∀ i, own i = true → ∀ m, ticks ((env i).perm strictRw) code m ((started call s shared).pos i) ≠ .fail) := by
  obtain ⟨own, hown⟩ : ∃ own : ι → Bool, ∀ i, own i = true ↔ call i = .shani ∧ 2 ≤ n i := ⟨fun i => decide (call i = .shani ∧ 2 ≤ n i), fun i => by simp⟩
  have hst : ∀ i r, strict r = true → (env i).writable r = true := fun i r h => by
    cases r <;> first | exact (E i).valid.output | exact (E i).valid.stack | cases h
  have hrw : ∀ i, own i = true → (env i).writable .shaniRw = true := fun i hi => hw i ((hown i).1 hi).1 ((hown i).1 hi).2
  have hstr : ∀ i, own i = true → ∀ r, strictRw r = true → (env i).writable r = true := fun i hi r h => by
    cases r <;> first | exact (E i).valid.output | exact (E i).valid.stack | exact hrw i hi | cases h
  have hself : ∀ i, ((started call s shared).pos i).withRw ((s i).mem .shaniRw) = (started call s shared).pos i := fun i =>
    withRw_self (fun u hu => by cases hu; rfl)
  have key : ∀ i, ∃ (s' : State) (k : Nat), Reaches (env i) code (.run (call i) [] (s i)) (.done s') ∧
      (∀ j, j < n i → bytesAt (s'.mem .output) (oo i + 32 * j) 32 = sha256 (bytesAt ((s i).mem .input) (ii i + 64 * j) 64)) ∧
      (own i = true → ticks ((env i).perm strictRw) code k ((started call s shared).pos i) = .done s') ∧
      (own i = false → ∃ u g, ticks ((env i).hide strict) code k ((started call s shared).pos i) = .done u ∧ s' = u.withRw g) := by
    intro i
    obtain ⟨v, rv, Xv⟩ := routine_spec (hl i) (E i) (hn i) (hw i)
    obtain ⟨kv, hkv⟩ := ticks_reaches rv (by simp)
    have hkv : ticks (env i) code kv ((started call s shared).pos i) = .done v := hkv
    -- where the run with fewer permissions ends, the run with all does
    have fin : ∀ k u, ticks (env i) code k ((started call s shared).pos i) = .done u → v = u := by
      intro k u h
      have h2 : ticks (env i) code (k + kv) ((started call s shared).pos i) = .done u := by rw [ticks_add, h, ticks_done]
      rw [Nat.add_comm, ticks_add, hkv, ticks_done] at h2
      cases h2; rfl
    cases ho : own i with
    | true =>
      obtain ⟨u, ru, -⟩ := routine_spec (hl i) ((E i).perm (w := strictRw) rfl rfl (fun _ => hrw i ho)) (hn i) (fun _ _ => rfl)
      obtain ⟨k, hk⟩ := ticks_reaches ru (by simp)
      have hk : ticks ((env i).perm strictRw) code k ((started call s shared).pos i) = .done u := hk
      have e := fin k u (by rw [(ticks_perm (hstr i ho) (not_fail_of_done hk) k).1, hk])
      exact ⟨v, k, rv, Xv.hash, fun _ => by rw [e]; exact hk, fun h => absurd h (by simp)⟩
    | false =>
      have hno : call i = .shani → 2 ≤ n i → False := fun a b => by rw [(hown i).2 ⟨a, b⟩] at ho; cases ho
      obtain ⟨u, ru, -⟩ := routine_spec (hl i) ((E i).hide (w := strict) rfl rfl rfl) (hn i) (fun a b => (hno a b).elim)
      obtain ⟨k, hk⟩ := ticks_reaches ru (by simp)
      have hk : ticks ((env i).hide strict) code k ((started call s shared).pos i) = .done u := hk
      have h1 := (ticks_hide (hst i) (not_fail_of_done hk) ((s i).mem .shaniRw) k).1
      rw [hself, hk] at h1
      exact ⟨v, k, rv, Xv.hash, fun h => absurd h (by simp), fun _ => ⟨u, _, hk, fin k _ h1⟩⟩
  obtain ⟨s', key⟩ := Classical.skolem.1 key
  obtain ⟨k, key⟩ := Classical.skolem.1 key
  have hno : ∀ i, own i = false → ∀ m, ticks ((env i).hide strict) code m ((started call s shared).pos i) ≠ .fail := fun i hi m => by
    obtain ⟨u, g, h, -⟩ := (key i).2.2.2 hi
    exact not_fail_of_done h m
  have hyes : ∀ i, own i = true → ∀ m, ticks ((env i).perm strictRw) code m ((started call s shared).pos i) ≠ .fail := fun i hi m =>
    not_fail_of_done ((key i).2.2.1 hi) m
  exact ⟨own, s', k, hown, hst, hstr, key, hno, hyes⟩

end

/-- **C28** (partial) Any number of threads that hash at the same time, each with any of the four routines and any number of blocks, where at most one
of them is in `sha256_shani` with two or more blocks: whatever the schedule, no thread fails, and once a thread has been given enough instructions it
has finished in the state in which it finishes when it runs alone, except for what it sees in the scratch memory of `sha256_shani`, with the digests
of its own blocks.

Missing: two threads in `sha256_shani` with two or more blocks, for which the claim is false (`C28_race`). -/
theorem C28_concurrent_partial {ι : Type} [DecidableEq ι] {call : ι → Label} {depth : ι → Nat} (hl : ∀ i, (call i, depth i) ∈ routines)
    {env : ι → Env} {s : ι → State} {t ii oo n : ι → Nat} (E : ∀ i, Entry (env i) (depth i) (t i) (ii i) (oo i) (n i) (env i).retAddr (s i))
    (hn : ∀ i, if call i = .one then n i = 1 else (s i).r .rdx = BitVec.ofNat 64 (n i))
    (hw : ∀ i, call i = .shani → 2 ≤ n i → (env i).writable .shaniRw = true)
    (hshani : ∀ i j, call i = .shani → 2 ≤ n i → call j = .shani → 2 ≤ n j → i = j)
    {shared : Mem} (hs : ∀ i r, r.shared = true → (s i).mem r = shared r) :
    ∃ (s' : ι → State) (k : ι → Nat),
      (∀ i, Reaches (env i) code (.run (call i) [] (s i)) (.done (s' i))) ∧
      (∀ i j, j < n i → bytesAt ((s' i).mem .output) (oo i + 32 * j) 32 = sha256 (bytesAt ((s i).mem .input) (ii i + 64 * j) 64)) ∧
      ∀ sched : List ι,
        (∀ i, ((started call s shared).run env code sched).pos i ≠ .fail) ∧
        (∀ i, k i ≤ sched.count i → ∃ g, ((started call s shared).run env code sched).pos i = .done { s' i with mem := upd (s' i).mem .shaniRw g }) ∧
        ∀ r, r.shared = true → r ≠ .shaniRw → ((started call s shared).run env code sched).shared r = shared r := by
  obtain ⟨own, s', k, hown, hst, hstr, key, hno, hyes⟩ := alone (shared := shared) hl E hn hw
  refine ⟨s', k, fun i => (key i).1, fun i => (key i).2.1, fun sched => ?_⟩
  obtain ⟨g1, g2, g3⟩ := run_one_owner (env := env) (code := code) (own := own) (p0 := started call s shared)
    (fun i j hi hj => hshani i j ((hown i).1 hi).1 ((hown i).1 hi).2 ((hown j).1 hj).1 ((hown j).1 hj).2) hst hstr
    (fun r h => by cases r <;> first | rfl | cases h) (fun r h hne => by cases r <;> first | rfl | exact (hne rfl).elim | cases h)
    (fun i r u hr hu => by cases hu; exact hs i r hr) hno hyes sched
  refine ⟨fun i => ?_, fun i hk => ?_, fun r hr hne => g3 r hr (fun e => absurd e hne)⟩
  · cases hi : own i with
    | true =>
      rw [g1 i hi, (ticks_perm (hstr i hi) (hyes i hi) _).1]
      exact hyes i hi _
    | false =>
      obtain ⟨g, e⟩ := g2 i hi
      rw [e, withRw_ne_fail]
      exact hno i hi _
  · cases hi : own i with
    | true =>
      refine ⟨(s' i).mem .shaniRw, ?_⟩
      rw [g1 i hi, (ticks_perm (hstr i hi) (hyes i hi) _).1, ← Nat.add_sub_cancel' hk, ticks_add, (key i).2.2.1 hi, ticks_done]
      exact (withRw_self (p := .done (s' i)) (g := (s' i).mem .shaniRw) (fun u hu => by cases hu; rfl)).symm
    | false =>
      obtain ⟨g, e⟩ := g2 i hi
      obtain ⟨u, g', hu, es⟩ := (key i).2.2.2 hi
      refine ⟨g, ?_⟩
      rw [e, ← Nat.add_sub_cancel' hk, ticks_add, hu, ticks_done, es]
      exact (withRw_withRw g' g (.done u)).symm

-- two threads, the first with 1000 blocks in eight lanes, the second with 77 blocks and the SHA instructions, on arbitrary data
example (inp inp' : List Byte) : ∀ i : Bool, Entry (Sample.env i.toNat Region.writable (if i then 77 else 1000)) (if i then 0 else 1720) 4088 0 0
    (if i then 77 else 1000) (Sample.env i.toNat Region.writable (if i then 77 else 1000)).retAddr
    (Sample.state i.toNat Region.writable (if i then 77 else 1000) (if i then inp else inp')) ∧
    ∀ r, r.shared = true → (Sample.state i.toNat Region.writable (if i then 77 else 1000) (if i then inp else inp')).mem r = Sample.mem [] r := by
  intro i
  cases i
  · exact ⟨Sample.entry (by decide) ⟨rfl, rfl⟩ (by decide) (by decide) inp', fun r hr => by cases r <;> first | rfl | cases hr⟩
  · exact ⟨Sample.entry (by decide) ⟨rfl, rfl⟩ (by decide) (by decide) inp, fun r hr => by cases r <;> first | rfl | cases hr⟩

/-- The threads at the entries of their routines, with empty queues. -/
def startedTso {ι : Type} (call : ι → Label) (s : ι → State) (shared : Mem) : TsoProcess ι :=
  ⟨fun i => Pos.ofConf code (.run (call i) [] (s i)), fun _ => [], shared⟩

/-- **C28** (partial) The same with store buffers (x86-TSO): any number of threads that hash at the same time, each with any of the four routines and any
number of blocks, where at most one of them is in `sha256_shani` with two or more blocks: whatever the order of the instructions and of the arrival
of stored bytes in memory, no thread fails, and once a thread has executed enough instructions it has finished in the state in which it finishes when
it runs alone, except for what it sees in the scratch memory of `sha256_shani`, with the digests of its own blocks.

Missing: two threads in `sha256_shani` with two or more blocks, for which the claim is false (`C28_race_store_buffers`). -/
theorem C28_store_buffers_partial {ι : Type} [DecidableEq ι] {call : ι → Label} {depth : ι → Nat} (hl : ∀ i, (call i, depth i) ∈ routines)
    {env : ι → Env} {s : ι → State} {t ii oo n : ι → Nat} (E : ∀ i, Entry (env i) (depth i) (t i) (ii i) (oo i) (n i) (env i).retAddr (s i))
    (hn : ∀ i, if call i = .one then n i = 1 else (s i).r .rdx = BitVec.ofNat 64 (n i))
    (hw : ∀ i, call i = .shani → 2 ≤ n i → (env i).writable .shaniRw = true)
    (hshani : ∀ i j, call i = .shani → 2 ≤ n i → call j = .shani → 2 ≤ n j → i = j)
    {shared : Mem} (hs : ∀ i r, r.shared = true → (s i).mem r = shared r) :
    ∃ (s' : ι → State) (k : ι → Nat),
      (∀ i, Reaches (env i) code (.run (call i) [] (s i)) (.done (s' i))) ∧
      (∀ i j, j < n i → bytesAt ((s' i).mem .output) (oo i + 32 * j) 32 = sha256 (bytesAt ((s i).mem .input) (ii i + 64 * j) 64)) ∧
      ∀ sched : List (Event ι),
        (∀ i, ((startedTso call s shared).run env code sched).pos i ≠ .fail) ∧
        (∀ i, k i ≤ executed i sched → ∃ g, ((startedTso call s shared).run env code sched).pos i = .done { s' i with mem := upd (s' i).mem .shaniRw g }) ∧
        ∀ r, r.shared = true → r ≠ .shaniRw → ((startedTso call s shared).run env code sched).shared r = shared r := by
  obtain ⟨own, s', k, hown, hst, hstr, key, hno, hyes⟩ := alone (shared := shared) hl E hn hw
  refine ⟨s', k, fun i => (key i).1, fun i => (key i).2.1, fun sched => ?_⟩
  obtain ⟨g1, g2, g3⟩ := tso_one_owner (env := env) (code := code) (own := own) (p0 := startedTso call s shared)
    (fun i j hi hj => hshani i j ((hown i).1 hi).1 ((hown i).1 hi).2 ((hown j).1 hj).1 ((hown j).1 hj).2) hst hstr
    (fun r h => by cases r <;> first | rfl | cases h) (fun r h hne => by cases r <;> first | rfl | exact (hne rfl).elim | cases h)
    (fun _ => rfl) (fun i r u hr hu => by cases hu; exact hs i r hr) hno hyes sched
  have g1 : ∀ i, own i = true → _ = ticks (env i) code (executed i sched) ((started call s shared).pos i) := g1
  have g2 : ∀ i, own i = false → ∃ g, _ = (ticks ((env i).hide strict) code (executed i sched) ((started call s shared).pos i)).withRw g := g2
  refine ⟨fun i => ?_, fun i hk => ?_, fun r hr hne => g3 r hr (fun e => absurd e hne)⟩
  · cases hi : own i with
    | true =>
      rw [g1 i hi, (ticks_perm (hstr i hi) (hyes i hi) _).1]
      exact hyes i hi _
    | false =>
      obtain ⟨g, e⟩ := g2 i hi
      rw [e, withRw_ne_fail]
      exact hno i hi _
  · cases hi : own i with
    | true =>
      refine ⟨(s' i).mem .shaniRw, ?_⟩
      rw [g1 i hi, (ticks_perm (hstr i hi) (hyes i hi) _).1, ← Nat.add_sub_cancel' hk, ticks_add, (key i).2.2.1 hi, ticks_done]
      exact (withRw_self (p := .done (s' i)) (g := (s' i).mem .shaniRw) (fun u hu => by cases hu; rfl)).symm
    | false =>
      obtain ⟨g, e⟩ := g2 i hi
      obtain ⟨u, g', hu, es⟩ := (key i).2.2.2 hi
      refine ⟨g, ?_⟩
      rw [e, ← Nat.add_sub_cancel' hk, ticks_add, hu, ticks_done, es]
      exact (withRw_withRw g' g (.done u)).symm

-- the hypotheses are those of `C28_concurrent_partial`; a store of 16 bytes to the scratch memory waits in the queue of its thread, and the thread sees it
example : ∃ (env : Env) (s : State) (shared : Mem),
    let p := (TsoProcess.mk (fun _ : Unit => .at [.movStoreX .dqa (.rel .shaniRw 0) .x1] .ret [] s) (fun _ => []) shared).tick (fun _ => env) code (.exec ())
    (p.queue ()).length = 16 ∧ p.shared .shaniRw 3 = 0 ∧ overlay (p.queue ()) p.shared .shaniRw 3 = 1 ∧
      (p.run (fun _ => env) code (List.replicate 4 (.arrive ()))).shared .shaniRw 3 = 1 ∧
      (p.run (fun _ => env) code (List.replicate 4 (.arrive ()))).shared .shaniRw 7 = 0 :=
  ⟨⟨fun r => if r = .shaniRw then 64 else 0, fun r => if r = .shaniRw then 16 else 0, fun _ => true, fun _ => 0, 0⟩,
    ⟨fun _ => 0, fun _ _ => 0x01010101, fun _ _ => 0, none, false⟩, fun _ _ => 0, by decide +kernel⟩

/-- **C28** fails for `sha256_shani` with two or more blocks: whenever two threads hash such numbers of blocks and their first blocks have different
digests, there is a schedule after which both calls have returned and the first digest of thread `a` is wrong. -/
theorem C28_race {ι : Type} [DecidableEq ι] {a b : ι} (hab : a ≠ b) {env : ι → Env} {s : ι → State} {t ii oo n : ι → Nat}
    (E : ∀ i, Entry (env i) 0 (t i) (ii i) (oo i) (n i) (env i).retAddr (s i)) (hdx : ∀ i, (s i).r .rdx = BitVec.ofNat 64 (n i))
    (hn : 2 ≤ n a ∧ 2 ≤ n b) (hw : ∀ i, (env i).writable = Region.writable) {shared : Mem} (hs : ∀ i r, r.shared = true → (s i).mem r = shared r)
    (hd : sha256 (bytesAt ((s a).mem .input) (ii a) 64) ≠ sha256 (bytesAt ((s b).mem .input) (ii b) 64)) :
    ∃ (sched : List ι) (sa sb : State), ((started (fun _ => .shani) s shared).run env code sched).pos a = .done sa ∧
      ((started (fun _ => .shani) s shared).run env code sched).pos b = .done sb ∧
      bytesAt (sa.mem .output) (oo a) 32 ≠ sha256 (bytesAt ((s a).mem .input) (ii a) 64) :=
  race hab E hdx hn (fun i => by rw [hw]; rfl) hs hd

/-- **C28** fails with store buffers as well. -/
theorem C28_race_store_buffers {ι : Type} [DecidableEq ι] {a b : ι} (hab : a ≠ b) {env : ι → Env} {s : ι → State} {t ii oo n : ι → Nat}
    (E : ∀ i, Entry (env i) 0 (t i) (ii i) (oo i) (n i) (env i).retAddr (s i)) (hdx : ∀ i, (s i).r .rdx = BitVec.ofNat 64 (n i))
    (hn : 2 ≤ n a ∧ 2 ≤ n b) (hw : ∀ i, (env i).writable = Region.writable) {shared : Mem} (hs : ∀ i r, r.shared = true → (s i).mem r = shared r)
    (hd : sha256 (bytesAt ((s a).mem .input) (ii a) 64) ≠ sha256 (bytesAt ((s b).mem .input) (ii b) 64)) :
    ∃ (sched : List (Event ι)) (sa sb : State), ((startedTso (fun _ => .shani) s shared).run env code sched).pos a = .done sa ∧
      ((startedTso (fun _ => .shani) s shared).run env code sched).pos b = .done sb ∧
      bytesAt (sa.mem .output) (oo a) 32 ≠ sha256 (bytesAt ((s a).mem .input) (ii a) 64) := by
  obtain ⟨sched, sa, sb, h1, h2, h3⟩ := C28_race hab E hdx hn hw hs hd
  obtain ⟨es, he⟩ := sc_is_tso env code sched (started (fun _ => .shani) s shared)
  have he : (startedTso (fun _ => .shani) s shared).run env code es = _ := he
  exact ⟨es, sa, sb, by rw [he]; exact h1, by rw [he]; exact h2, h3⟩

theorem zeros_ones : sha256 (List.replicate 64 0) ≠ sha256 (List.replicate 64 1) := by
  rw [sha256_two _ (by decide +kernel), sha256_two _ (by decide +kernel)]
  decide +kernel

/-- A concrete case of `C28_race`: one thread hashes 128 bytes 0, the other 128 bytes 1. -/
theorem C28_race_witness : ∃ (sched : List Bool) (sa sb : State),
    ((started (fun _ => .shani) (fun i => Sample.state i.toNat Region.writable 2 (List.replicate 128 (if i then 1 else 0))) (Sample.mem [])).run
      (fun i => Sample.env i.toNat Region.writable 2) code sched).pos false = .done sa ∧
    ((started (fun _ => .shani) (fun i => Sample.state i.toNat Region.writable 2 (List.replicate 128 (if i then 1 else 0))) (Sample.mem [])).run
      (fun i => Sample.env i.toNat Region.writable 2) code sched).pos true = .done sb ∧
    bytesAt (sa.mem .output) 0 32 ≠ sha256 (List.replicate 64 0) := by
  have hb : ∀ v : Byte, bytesAt (Sample.mem (List.replicate 128 v) .input) 0 64 = List.replicate 64 v := by
    exact fun _ => rfl
  obtain ⟨sched, sa, sb, h1, h2, h3⟩ := C28_race (a := false) (b := true) (by decide) (env := fun i => Sample.env i.toNat Region.writable 2)
    (s := fun i => Sample.state i.toNat Region.writable 2 (List.replicate 128 (if i then 1 else 0))) (t := fun _ => 4088) (ii := fun _ => 0) (oo := fun _ => 0) (n := fun _ => 2)
    (shared := Sample.mem []) (fun i => Sample.entry (by cases i <;> decide) ⟨rfl, rfl⟩ (by decide) (by decide) _) (fun _ => rfl) (by decide) (fun _ => rfl)
    (fun i r hr => by cases r <;> first | rfl | cases hr) (by
      show sha256 (bytesAt (Sample.mem (List.replicate 128 0) .input) 0 64) ≠ sha256 (bytesAt (Sample.mem (List.replicate 128 1) .input) 0 64)
      rw [hb, hb]; exact zeros_ones)
  refine ⟨sched, sa, sb, h1, h2, fun h => h3 (h.trans ?_)⟩
  show _ = sha256 (bytesAt (Sample.mem (List.replicate 128 0) .input) 0 64)
  rw [hb]

end Mammon
