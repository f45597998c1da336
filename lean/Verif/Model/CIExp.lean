import Verif.Model.CI
/-!
# Model of `gmakeCfromT` and `makeCfromT` (cqcpy/ci_utils.py:418-1269)

Generated by tools/gen_ci.py from the source, one definition per top-level loop.
-/
namespace CI
set_option linter.unusedVariables false
variable {K : Type} [Field K]

/-- cqcpy/ci_utils.py:444-449 -/
def g_T1 (basis : List (Option Dstring)) (ref : Dstring) (iocc ivir : List ℕ) (T1 : ℕ → ℕ → K) (T2 : ℕ → ℕ → ℕ → ℕ → K) (C : List K) : R (List K) :=
  loop (enum iocc) (fun (ii, i) C =>
    loop (enum ivir) (fun (ia, a) C =>
      (ref.excite i a).bind fun rs =>
      match rs with
      | none => .ok C
      | some (s, dstr) =>
        (index basis dstr).bind fun idx => addAt C idx ((s : K) * (T1 ia ii))) C) C

/-- cqcpy/ci_utils.py:452-466 -/
def g_T2 (basis : List (Option Dstring)) (ref : Dstring) (iocc ivir : List ℕ) (T1 : ℕ → ℕ → K) (T2 : ℕ → ℕ → ℕ → ℕ → K) (C : List K) : R (List K) :=
  loop (enum iocc) (fun (ii, i) C =>
    loop (enum iocc) (fun (ij, j) C =>
      if j ≤ i then .ok C else
      loop (enum ivir) (fun (ia, a) C =>
        loop (enum ivir) (fun (ib, b) C =>
          if b ≤ a then .ok C else
          (ref.excite i a).bind fun rs1 =>
          match rs1 with
          | none => .ok C
          | some (s1, dstr) =>
            (dstr.excite j b).bind fun rs2 =>
            match rs2 with
            | none => .ok C
            | some (s2, dstr) =>
              (index basis dstr).bind fun idx => addAt C idx (((s1 : K) * (s2 : K)) * (T2 ia ib ii ij))) C) C) C) C

/-- cqcpy/ci_utils.py:468-478 -/
def g_T1_T1 (basis : List (Option Dstring)) (ref : Dstring) (iocc ivir : List ℕ) (T1 : ℕ → ℕ → K) (T2 : ℕ → ℕ → ℕ → ℕ → K) (C : List K) : R (List K) :=
  loop (enum iocc) (fun (ii, i) C =>
    loop (enum iocc) (fun (ij, j) C =>
      loop (enum ivir) (fun (ia, a) C =>
        loop (enum ivir) (fun (ib, b) C =>
          (ref.excite i a).bind fun rs1 =>
          match rs1 with
          | none => .ok C
          | some (s1, dstr) =>
            (dstr.excite j b).bind fun rs2 =>
            match rs2 with
            | none => .ok C
            | some (s2, dstr) =>
              (index basis dstr).bind fun idx => addAt C idx (((((1 / 2) * (s1 : K)) * (s2 : K)) * (T1 ia ii)) * (T1 ib ij))) C) C) C) C

/-- cqcpy/ci_utils.py:481-500 -/
def g_T1_T2 (basis : List (Option Dstring)) (ref : Dstring) (iocc ivir : List ℕ) (T1 : ℕ → ℕ → K) (T2 : ℕ → ℕ → ℕ → ℕ → K) (C : List K) : R (List K) :=
  loop (enum iocc) (fun (ii, i) C =>
    loop (enum iocc) (fun (ij, j) C =>
      loop (enum iocc) (fun (ik, k) C =>
        if k ≤ j then .ok C else
        loop (enum ivir) (fun (ia, a) C =>
          loop (enum ivir) (fun (ib, b) C =>
            loop (enum ivir) (fun (ic, c) C =>
              if c ≤ b then .ok C else
              (ref.excite i a).bind fun rs1 =>
              match rs1 with
              | none => .ok C
              | some (s1, dstr) =>
                (dstr.excite j b).bind fun rs2 =>
                match rs2 with
                | none => .ok C
                | some (s2, dstr) =>
                  (dstr.excite k c).bind fun rs3 =>
                  match rs3 with
                  | none => .ok C
                  | some (s3, dstr) =>
                    (index basis dstr).bind fun idx => addAt C idx (((((s1 : K) * (s2 : K)) * (s3 : K)) * (T1 ia ii)) * (T2 ib ic ij ik))) C) C) C) C) C) C

/-- cqcpy/ci_utils.py:502-517 -/
def g_T1_T1_T1 (basis : List (Option Dstring)) (ref : Dstring) (iocc ivir : List ℕ) (T1 : ℕ → ℕ → K) (T2 : ℕ → ℕ → ℕ → ℕ → K) (C : List K) : R (List K) :=
  loop (enum iocc) (fun (ii, i) C =>
    loop (enum iocc) (fun (ij, j) C =>
      loop (enum iocc) (fun (ik, k) C =>
        loop (enum ivir) (fun (ia, a) C =>
          loop (enum ivir) (fun (ib, b) C =>
            loop (enum ivir) (fun (ic, c) C =>
              (ref.excite i a).bind fun rs1 =>
              match rs1 with
              | none => .ok C
              | some (s1, dstr) =>
                (dstr.excite j b).bind fun rs2 =>
                match rs2 with
                | none => .ok C
                | some (s2, dstr) =>
                  (dstr.excite k c).bind fun rs3 =>
                  match rs3 with
                  | none => .ok C
                  | some (s3, dstr) =>
                    (index basis dstr).bind fun idx => addAt C idx (((((((s1 : K) * (s2 : K)) * (s3 : K)) * (T1 ia ii)) * (T1 ib ij)) * (T1 ic ik)) / 6)) C) C) C) C) C) C

/-- cqcpy/ci_utils.py:520-548 -/
def g_T2_T2 (basis : List (Option Dstring)) (ref : Dstring) (iocc ivir : List ℕ) (T1 : ℕ → ℕ → K) (T2 : ℕ → ℕ → ℕ → ℕ → K) (C : List K) : R (List K) :=
  loop (enum iocc) (fun (ii, i) C =>
    loop (enum iocc) (fun (ij, j) C =>
      if j ≤ i then .ok C else
      loop (enum iocc) (fun (ik, k) C =>
        loop (enum iocc) (fun (il, l) C =>
          if l ≤ k then .ok C else
          loop (enum ivir) (fun (ia, a) C =>
            loop (enum ivir) (fun (ib, b) C =>
              if b ≤ a then .ok C else
              loop (enum ivir) (fun (ic, c) C =>
                loop (enum ivir) (fun (idd, d) C =>
                  if d ≤ c then .ok C else
                  (ref.excite i a).bind fun rs1 =>
                  match rs1 with
                  | none => .ok C
                  | some (s1, dstr) =>
                    (dstr.excite j b).bind fun rs2 =>
                    match rs2 with
                    | none => .ok C
                    | some (s2, dstr) =>
                      (dstr.excite k c).bind fun rs3 =>
                      match rs3 with
                      | none => .ok C
                      | some (s3, dstr) =>
                        (dstr.excite l d).bind fun rs4 =>
                        match rs4 with
                        | none => .ok C
                        | some (s4, dstr) =>
                          (index basis dstr).bind fun idx => addAt C idx (((((((s1 : K) * (s2 : K)) * (s3 : K)) * (s4 : K)) * (T2 ia ib ii ij)) * (T2 ic idd ik il)) / 2)) C) C) C) C) C) C) C) C

/-- cqcpy/ci_utils.py:550-574 -/
def g_T1_T1_T2 (basis : List (Option Dstring)) (ref : Dstring) (iocc ivir : List ℕ) (T1 : ℕ → ℕ → K) (T2 : ℕ → ℕ → ℕ → ℕ → K) (C : List K) : R (List K) :=
  loop (enum iocc) (fun (ii, i) C =>
    loop (enum iocc) (fun (ij, j) C =>
      loop (enum iocc) (fun (ik, k) C =>
        loop (enum iocc) (fun (il, l) C =>
          if l ≤ k then .ok C else
          loop (enum ivir) (fun (ia, a) C =>
            loop (enum ivir) (fun (ib, b) C =>
              loop (enum ivir) (fun (ic, c) C =>
                loop (enum ivir) (fun (idd, d) C =>
                  if d ≤ c then .ok C else
                  (ref.excite i a).bind fun rs1 =>
                  match rs1 with
                  | none => .ok C
                  | some (s1, dstr) =>
                    (dstr.excite j b).bind fun rs2 =>
                    match rs2 with
                    | none => .ok C
                    | some (s2, dstr) =>
                      (dstr.excite k c).bind fun rs3 =>
                      match rs3 with
                      | none => .ok C
                      | some (s3, dstr) =>
                        (dstr.excite l d).bind fun rs4 =>
                        match rs4 with
                        | none => .ok C
                        | some (s4, dstr) =>
                          (index basis dstr).bind fun idx => addAt C idx ((((((((s1 : K) * (s2 : K)) * (s3 : K)) * (s4 : K)) * (T1 ia ii)) * (T1 ib ij)) * (T2 ic idd ik il)) / 2)) C) C) C) C) C) C) C) C

/-- cqcpy/ci_utils.py:575-596 -/
def g_T1_T1_T1_T1 (basis : List (Option Dstring)) (ref : Dstring) (iocc ivir : List ℕ) (T1 : ℕ → ℕ → K) (T2 : ℕ → ℕ → ℕ → ℕ → K) (C : List K) : R (List K) :=
  loop (enum iocc) (fun (ii, i) C =>
    loop (enum iocc) (fun (ij, j) C =>
      loop (enum iocc) (fun (ik, k) C =>
        loop (enum iocc) (fun (il, l) C =>
          loop (enum ivir) (fun (ia, a) C =>
            loop (enum ivir) (fun (ib, b) C =>
              loop (enum ivir) (fun (ic, c) C =>
                loop (enum ivir) (fun (idd, d) C =>
                  (ref.excite i a).bind fun rs1 =>
                  match rs1 with
                  | none => .ok C
                  | some (s1, dstr) =>
                    (dstr.excite j b).bind fun rs2 =>
                    match rs2 with
                    | none => .ok C
                    | some (s2, dstr) =>
                      (dstr.excite k c).bind fun rs3 =>
                      match rs3 with
                      | none => .ok C
                      | some (s3, dstr) =>
                        (dstr.excite l d).bind fun rs4 =>
                        match rs4 with
                        | none => .ok C
                        | some (s4, dstr) =>
                          (index basis dstr).bind fun idx => addAt C idx (((((((((s1 : K) * (s2 : K)) * (s3 : K)) * (s4 : K)) * (T1 ia ii)) * (T1 ib ij)) * (T1 ic ik)) * (T1 idd il)) / 24)) C) C) C) C) C) C) C) C

/-- cqcpy/ci_utils.py:626-631 -/
def u_T1a (basis : List Pair) (refa refb : Dstring) (noa nva nob nvb : ℕ) (T1a T1b : ℕ → ℕ → K)
    (T2aa T2ab T2bb : ℕ → ℕ → ℕ → ℕ → K) (C : List K) : R (List K) :=
  loop (List.range noa) (fun i C =>
    loop (List.range nva) (fun a C =>
      (refa.excite i (a + noa)).bind fun rs =>
      match rs with
      | none => .ok C
      | some (s, astr) =>
        (index2 basis astr refb).bind fun idx => addAt C idx ((s : K) * (T1a a i))) C) C

/-- cqcpy/ci_utils.py:633-638 -/
def u_T1b (basis : List Pair) (refa refb : Dstring) (noa nva nob nvb : ℕ) (T1a T1b : ℕ → ℕ → K)
    (T2aa T2ab T2bb : ℕ → ℕ → ℕ → ℕ → K) (C : List K) : R (List K) :=
  loop (List.range nob) (fun i C =>
    loop (List.range nvb) (fun a C =>
      (refb.excite i (a + nob)).bind fun rs =>
      match rs with
      | none => .ok C
      | some (s, bstr) =>
        (index2 basis refa bstr).bind fun idx => addAt C idx ((s : K) * (T1b a i))) C) C

/-- cqcpy/ci_utils.py:642-652 -/
def u_T2aa (basis : List Pair) (refa refb : Dstring) (noa nva nob nvb : ℕ) (T1a T1b : ℕ → ℕ → K)
    (T2aa T2ab T2bb : ℕ → ℕ → ℕ → ℕ → K) (C : List K) : R (List K) :=
  loop (List.range noa) (fun i C =>
    loop (List.range' (i + 1) (noa - (i + 1))) (fun j C =>
      loop (List.range nva) (fun a C =>
        loop (List.range' (a + 1) (nva - (a + 1))) (fun b C =>
          (refa.excite i (a + noa)).bind fun rs1 =>
          match rs1 with
          | none => .ok C
          | some (s1, astr) =>
            (astr.excite j (b + noa)).bind fun rs2 =>
            match rs2 with
            | none => .ok C
            | some (s2, astr) =>
              (index2 basis astr refb).bind fun idx => addAt C idx (((s1 : K) * (s2 : K)) * (T2aa a b i j))) C) C) C) C

/-- cqcpy/ci_utils.py:654-664 -/
def u_T2bb (basis : List Pair) (refa refb : Dstring) (noa nva nob nvb : ℕ) (T1a T1b : ℕ → ℕ → K)
    (T2aa T2ab T2bb : ℕ → ℕ → ℕ → ℕ → K) (C : List K) : R (List K) :=
  loop (List.range nob) (fun i C =>
    loop (List.range' (i + 1) (nob - (i + 1))) (fun j C =>
      loop (List.range nvb) (fun a C =>
        loop (List.range' (a + 1) (nvb - (a + 1))) (fun b C =>
          (refb.excite i (a + nob)).bind fun rs1 =>
          match rs1 with
          | none => .ok C
          | some (s1, bstr) =>
            (bstr.excite j (b + nob)).bind fun rs2 =>
            match rs2 with
            | none => .ok C
            | some (s2, bstr) =>
              (index2 basis refa bstr).bind fun idx => addAt C idx (((s1 : K) * (s2 : K)) * (T2bb a b i j))) C) C) C) C

/-- cqcpy/ci_utils.py:666-674 -/
def u_T2ab (basis : List Pair) (refa refb : Dstring) (noa nva nob nvb : ℕ) (T1a T1b : ℕ → ℕ → K)
    (T2aa T2ab T2bb : ℕ → ℕ → ℕ → ℕ → K) (C : List K) : R (List K) :=
  loop (List.range noa) (fun i C =>
    loop (List.range nob) (fun j C =>
      loop (List.range nva) (fun a C =>
        loop (List.range nvb) (fun b C =>
          (refa.excite i (a + noa)).bind fun rsa =>
          (refb.excite j (b + nob)).bind fun rsb =>
          match rsa with
          | none => .ok C
          | some (sa, astr) =>
            match rsb with
            | none => .ok C
            | some (sb, bstr) =>
              (index2 basis astr bstr).bind fun idx => addAt C idx (((sa : K) * (sb : K)) * (T2ab a b i j))) C) C) C) C

/-- cqcpy/ci_utils.py:677-687 -/
def u_T1a_T1a (basis : List Pair) (refa refb : Dstring) (noa nva nob nvb : ℕ) (T1a T1b : ℕ → ℕ → K)
    (T2aa T2ab T2bb : ℕ → ℕ → ℕ → ℕ → K) (C : List K) : R (List K) :=
  loop (List.range noa) (fun i C =>
    loop (List.range noa) (fun j C =>
      loop (List.range nva) (fun a C =>
        loop (List.range nva) (fun b C =>
          (refa.excite i (a + noa)).bind fun rs1 =>
          match rs1 with
          | none => .ok C
          | some (s1, astr) =>
            (astr.excite j (b + noa)).bind fun rs2 =>
            match rs2 with
            | none => .ok C
            | some (s2, astr) =>
              (index2 basis astr refb).bind fun idx => addAt C idx (((((1 / 2) * (s1 : K)) * (s2 : K)) * (T1a a i)) * (T1a b j))) C) C) C) C

/-- cqcpy/ci_utils.py:689-699 -/
def u_T1b_T1b (basis : List Pair) (refa refb : Dstring) (noa nva nob nvb : ℕ) (T1a T1b : ℕ → ℕ → K)
    (T2aa T2ab T2bb : ℕ → ℕ → ℕ → ℕ → K) (C : List K) : R (List K) :=
  loop (List.range nob) (fun i C =>
    loop (List.range nob) (fun j C =>
      loop (List.range nvb) (fun a C =>
        loop (List.range nvb) (fun b C =>
          (refb.excite i (a + nob)).bind fun rs1 =>
          match rs1 with
          | none => .ok C
          | some (s1, bstr) =>
            (bstr.excite j (b + nob)).bind fun rs2 =>
            match rs2 with
            | none => .ok C
            | some (s2, bstr) =>
              (index2 basis refa bstr).bind fun idx => addAt C idx (((((1 / 2) * (s1 : K)) * (s2 : K)) * (T1b a i)) * (T1b b j))) C) C) C) C

/-- cqcpy/ci_utils.py:701-709 -/
def u_T1a_T1b (basis : List Pair) (refa refb : Dstring) (noa nva nob nvb : ℕ) (T1a T1b : ℕ → ℕ → K)
    (T2aa T2ab T2bb : ℕ → ℕ → ℕ → ℕ → K) (C : List K) : R (List K) :=
  loop (List.range noa) (fun i C =>
    loop (List.range nob) (fun j C =>
      loop (List.range nva) (fun a C =>
        loop (List.range nvb) (fun b C =>
          (refa.excite i (a + noa)).bind fun rsa =>
          (refb.excite j (b + nob)).bind fun rsb =>
          match rsa with
          | none => .ok C
          | some (sa, astr) =>
            match rsb with
            | none => .ok C
            | some (sb, bstr) =>
              (index2 basis astr bstr).bind fun idx => addAt C idx ((((sa : K) * (sb : K)) * (T1a a i)) * (T1b b j))) C) C) C) C

/-- cqcpy/ci_utils.py:712-727 -/
def u_T1a_T2aa (basis : List Pair) (refa refb : Dstring) (noa nva nob nvb : ℕ) (T1a T1b : ℕ → ℕ → K)
    (T2aa T2ab T2bb : ℕ → ℕ → ℕ → ℕ → K) (C : List K) : R (List K) :=
  loop (List.range noa) (fun i C =>
    loop (List.range noa) (fun j C =>
      loop (List.range' (j + 1) (noa - (j + 1))) (fun k C =>
        loop (List.range nva) (fun a C =>
          loop (List.range nva) (fun b C =>
            loop (List.range' (b + 1) (nva - (b + 1))) (fun c C =>
              (refa.excite i (a + noa)).bind fun rs1 =>
              match rs1 with
              | none => .ok C
              | some (s1, astr) =>
                (astr.excite j (b + noa)).bind fun rs2 =>
                match rs2 with
                | none => .ok C
                | some (s2, astr) =>
                  (astr.excite k (c + noa)).bind fun rs3 =>
                  match rs3 with
                  | none => .ok C
                  | some (s3, astr) =>
                    (index2 basis astr refb).bind fun idx => addAt C idx (((((s1 : K) * (s2 : K)) * (s3 : K)) * (T1a a i)) * (T2aa b c j k))) C) C) C) C) C) C

/-- cqcpy/ci_utils.py:729-742 -/
def u_T1a_T2ab (basis : List Pair) (refa refb : Dstring) (noa nva nob nvb : ℕ) (T1a T1b : ℕ → ℕ → K)
    (T2aa T2ab T2bb : ℕ → ℕ → ℕ → ℕ → K) (C : List K) : R (List K) :=
  loop (List.range noa) (fun i C =>
    loop (List.range noa) (fun j C =>
      loop (List.range nob) (fun k C =>
        loop (List.range nva) (fun a C =>
          loop (List.range nva) (fun b C =>
            loop (List.range nvb) (fun c C =>
              (refa.excite i (a + noa)).bind fun rs1a =>
              match rs1a with
              | none => .ok C
              | some (s1a, astr) =>
                (astr.excite j (b + noa)).bind fun rs2a =>
                (refb.excite k (c + nob)).bind fun rsb =>
                match rs2a with
                | none => .ok C
                | some (s2a, astr) =>
                  match rsb with
                  | none => .ok C
                  | some (sb, bstr) =>
                    (index2 basis astr bstr).bind fun idx => addAt C idx (((((s1a : K) * (s2a : K)) * (sb : K)) * (T1a a i)) * (T2ab b c j k))) C) C) C) C) C) C

/-- cqcpy/ci_utils.py:744-757 -/
def u_T1b_T2aa (basis : List Pair) (refa refb : Dstring) (noa nva nob nvb : ℕ) (T1a T1b : ℕ → ℕ → K)
    (T2aa T2ab T2bb : ℕ → ℕ → ℕ → ℕ → K) (C : List K) : R (List K) :=
  loop (List.range nob) (fun i C =>
    loop (List.range noa) (fun j C =>
      loop (List.range' (j + 1) (noa - (j + 1))) (fun k C =>
        loop (List.range nvb) (fun a C =>
          loop (List.range nva) (fun b C =>
            loop (List.range' (b + 1) (nva - (b + 1))) (fun c C =>
              (refb.excite i (a + nob)).bind fun rsb =>
              (refa.excite j (b + noa)).bind fun rs1a =>
              match rs1a with
              | none => .ok C
              | some (s1a, astr) =>
                (astr.excite k (c + noa)).bind fun rs2a =>
                match rsb with
                | none => .ok C
                | some (sb, bstr) =>
                  match rs2a with
                  | none => .ok C
                  | some (s2a, astr) =>
                    (index2 basis astr bstr).bind fun idx => addAt C idx (((((s1a : K) * (s2a : K)) * (sb : K)) * (T1b a i)) * (T2aa b c j k))) C) C) C) C) C) C

/-- cqcpy/ci_utils.py:759-772 -/
def u_T1a_T2bb (basis : List Pair) (refa refb : Dstring) (noa nva nob nvb : ℕ) (T1a T1b : ℕ → ℕ → K)
    (T2aa T2ab T2bb : ℕ → ℕ → ℕ → ℕ → K) (C : List K) : R (List K) :=
  loop (List.range noa) (fun i C =>
    loop (List.range nob) (fun j C =>
      loop (List.range' (j + 1) (nob - (j + 1))) (fun k C =>
        loop (List.range nva) (fun a C =>
          loop (List.range nvb) (fun b C =>
            loop (List.range' (b + 1) (nvb - (b + 1))) (fun c C =>
              (refa.excite i (a + noa)).bind fun rsa =>
              (refb.excite j (b + nob)).bind fun rs1b =>
              match rs1b with
              | none => .ok C
              | some (s1b, bstr) =>
                (bstr.excite k (c + nob)).bind fun rs2b =>
                match rsa with
                | none => .ok C
                | some (sa, astr) =>
                  match rs2b with
                  | none => .ok C
                  | some (s2b, bstr) =>
                    (index2 basis astr bstr).bind fun idx => addAt C idx (((((s1b : K) * (s2b : K)) * (sa : K)) * (T1a a i)) * (T2bb b c j k))) C) C) C) C) C) C

/-- cqcpy/ci_utils.py:774-787 -/
def u_T1b_T2ab (basis : List Pair) (refa refb : Dstring) (noa nva nob nvb : ℕ) (T1a T1b : ℕ → ℕ → K)
    (T2aa T2ab T2bb : ℕ → ℕ → ℕ → ℕ → K) (C : List K) : R (List K) :=
  loop (List.range nob) (fun i C =>
    loop (List.range noa) (fun j C =>
      loop (List.range nob) (fun k C =>
        loop (List.range nvb) (fun a C =>
          loop (List.range nva) (fun b C =>
            loop (List.range nvb) (fun c C =>
              (refb.excite i (a + nob)).bind fun rs1b =>
              match rs1b with
              | none => .ok C
              | some (s1b, bstr) =>
                (refa.excite j (b + noa)).bind fun rsa =>
                (bstr.excite k (c + nob)).bind fun rs2b =>
                match rsa with
                | none => .ok C
                | some (sa, astr) =>
                  match rs2b with
                  | none => .ok C
                  | some (s2b, bstr) =>
                    (index2 basis astr bstr).bind fun idx => addAt C idx (((((s1b : K) * (s2b : K)) * (sa : K)) * (T1b a i)) * (T2ab b c j k))) C) C) C) C) C) C

/-- cqcpy/ci_utils.py:789-804 -/
def u_T1b_T2bb (basis : List Pair) (refa refb : Dstring) (noa nva nob nvb : ℕ) (T1a T1b : ℕ → ℕ → K)
    (T2aa T2ab T2bb : ℕ → ℕ → ℕ → ℕ → K) (C : List K) : R (List K) :=
  loop (List.range nob) (fun i C =>
    loop (List.range nob) (fun j C =>
      loop (List.range' (j + 1) (nob - (j + 1))) (fun k C =>
        loop (List.range nvb) (fun a C =>
          loop (List.range nvb) (fun b C =>
            loop (List.range' (b + 1) (nvb - (b + 1))) (fun c C =>
              (refb.excite i (a + nob)).bind fun rs1 =>
              match rs1 with
              | none => .ok C
              | some (s1, bstr) =>
                (bstr.excite j (b + nob)).bind fun rs2 =>
                match rs2 with
                | none => .ok C
                | some (s2, bstr) =>
                  (bstr.excite k (c + nob)).bind fun rs3 =>
                  match rs3 with
                  | none => .ok C
                  | some (s3, bstr) =>
                    (index2 basis refa bstr).bind fun idx => addAt C idx (((((s1 : K) * (s2 : K)) * (s3 : K)) * (T1b a i)) * (T2bb b c j k))) C) C) C) C) C) C

/-- cqcpy/ci_utils.py:807-822 -/
def u_T1a_T1a_T1a (basis : List Pair) (refa refb : Dstring) (noa nva nob nvb : ℕ) (T1a T1b : ℕ → ℕ → K)
    (T2aa T2ab T2bb : ℕ → ℕ → ℕ → ℕ → K) (C : List K) : R (List K) :=
  loop (List.range noa) (fun i C =>
    loop (List.range noa) (fun j C =>
      loop (List.range noa) (fun k C =>
        loop (List.range nva) (fun a C =>
          loop (List.range nva) (fun b C =>
            loop (List.range nva) (fun c C =>
              (refa.excite i (a + noa)).bind fun rs1 =>
              match rs1 with
              | none => .ok C
              | some (s1, astr) =>
                (astr.excite j (b + noa)).bind fun rs2 =>
                match rs2 with
                | none => .ok C
                | some (s2, astr) =>
                  (astr.excite k (c + noa)).bind fun rs3 =>
                  match rs3 with
                  | none => .ok C
                  | some (s3, astr) =>
                    (index2 basis astr refb).bind fun idx => addAt C idx (((((((s1 : K) * (s2 : K)) * (s3 : K)) * (T1a a i)) * (T1a b j)) * (T1a c k)) / 6)) C) C) C) C) C) C

/-- cqcpy/ci_utils.py:824-837 -/
def u_T1a_T1a_T1b (basis : List Pair) (refa refb : Dstring) (noa nva nob nvb : ℕ) (T1a T1b : ℕ → ℕ → K)
    (T2aa T2ab T2bb : ℕ → ℕ → ℕ → ℕ → K) (C : List K) : R (List K) :=
  loop (List.range noa) (fun i C =>
    loop (List.range noa) (fun j C =>
      loop (List.range nob) (fun k C =>
        loop (List.range nva) (fun a C =>
          loop (List.range nva) (fun b C =>
            loop (List.range nvb) (fun c C =>
              (refa.excite i (a + noa)).bind fun rs1a =>
              match rs1a with
              | none => .ok C
              | some (s1a, astr) =>
                (astr.excite j (b + noa)).bind fun rs2a =>
                (refb.excite k (c + nob)).bind fun rsb =>
                match rs2a with
                | none => .ok C
                | some (s2a, astr) =>
                  match rsb with
                  | none => .ok C
                  | some (sb, bstr) =>
                    (index2 basis astr bstr).bind fun idx => addAt C idx (((((((s1a : K) * (s2a : K)) * (sb : K)) * (T1a a i)) * (T1a b j)) * (T1b c k)) / 2)) C) C) C) C) C) C

/-- cqcpy/ci_utils.py:839-852 -/
def u_T1a_T1b_T1b (basis : List Pair) (refa refb : Dstring) (noa nva nob nvb : ℕ) (T1a T1b : ℕ → ℕ → K)
    (T2aa T2ab T2bb : ℕ → ℕ → ℕ → ℕ → K) (C : List K) : R (List K) :=
  loop (List.range noa) (fun i C =>
    loop (List.range nob) (fun j C =>
      loop (List.range nob) (fun k C =>
        loop (List.range nva) (fun a C =>
          loop (List.range nvb) (fun b C =>
            loop (List.range nvb) (fun c C =>
              (refa.excite i (a + noa)).bind fun rsa =>
              (refb.excite j (b + nob)).bind fun rs1b =>
              match rs1b with
              | none => .ok C
              | some (s1b, bstr) =>
                (bstr.excite k (c + nob)).bind fun rs2b =>
                match rsa with
                | none => .ok C
                | some (sa, astr) =>
                  match rs2b with
                  | none => .ok C
                  | some (s2b, bstr) =>
                    (index2 basis astr bstr).bind fun idx => addAt C idx (((((((s1b : K) * (s2b : K)) * (sa : K)) * (T1a a i)) * (T1b b j)) * (T1b c k)) / 2)) C) C) C) C) C) C

/-- cqcpy/ci_utils.py:854-869 -/
def u_T1b_T1b_T1b (basis : List Pair) (refa refb : Dstring) (noa nva nob nvb : ℕ) (T1a T1b : ℕ → ℕ → K)
    (T2aa T2ab T2bb : ℕ → ℕ → ℕ → ℕ → K) (C : List K) : R (List K) :=
  loop (List.range nob) (fun i C =>
    loop (List.range nob) (fun j C =>
      loop (List.range nob) (fun k C =>
        loop (List.range nvb) (fun a C =>
          loop (List.range nvb) (fun b C =>
            loop (List.range nvb) (fun c C =>
              (refb.excite i (a + nob)).bind fun rs1 =>
              match rs1 with
              | none => .ok C
              | some (s1, bstr) =>
                (bstr.excite j (b + nob)).bind fun rs2 =>
                match rs2 with
                | none => .ok C
                | some (s2, bstr) =>
                  (bstr.excite k (c + nob)).bind fun rs3 =>
                  match rs3 with
                  | none => .ok C
                  | some (s3, bstr) =>
                    (index2 basis refa bstr).bind fun idx => addAt C idx (((((((s1 : K) * (s2 : K)) * (s3 : K)) * (T1b a i)) * (T1b b j)) * (T1b c k)) / 6)) C) C) C) C) C) C

/-- cqcpy/ci_utils.py:872-892 -/
def u_T2aa_T2aa (basis : List Pair) (refa refb : Dstring) (noa nva nob nvb : ℕ) (T1a T1b : ℕ → ℕ → K)
    (T2aa T2ab T2bb : ℕ → ℕ → ℕ → ℕ → K) (C : List K) : R (List K) :=
  loop (List.range noa) (fun i C =>
    loop (List.range' (i + 1) (noa - (i + 1))) (fun j C =>
      loop (List.range noa) (fun k C =>
        loop (List.range' (k + 1) (noa - (k + 1))) (fun l C =>
          loop (List.range nva) (fun a C =>
            loop (List.range' (a + 1) (nva - (a + 1))) (fun b C =>
              loop (List.range nva) (fun c C =>
                loop (List.range' (c + 1) (nva - (c + 1))) (fun d C =>
                  (refa.excite i (a + noa)).bind fun rsa1 =>
                  match rsa1 with
                  | none => .ok C
                  | some (sa1, astr) =>
                    (astr.excite j (b + noa)).bind fun rsa2 =>
                    match rsa2 with
                    | none => .ok C
                    | some (sa2, astr) =>
                      (astr.excite k (c + noa)).bind fun rsa3 =>
                      match rsa3 with
                      | none => .ok C
                      | some (sa3, astr) =>
                        (astr.excite l (d + noa)).bind fun rsa4 =>
                        match rsa4 with
                        | none => .ok C
                        | some (sa4, astr) =>
                          (index2 basis astr refb).bind fun idx => addAt C idx (((((((sa1 : K) * (sa2 : K)) * (sa3 : K)) * (sa4 : K)) * (T2aa a b i j)) * (T2aa c d k l)) / 2)) C) C) C) C) C) C) C) C

/-- cqcpy/ci_utils.py:894-912 -/
def u_T2aa_T2ab (basis : List Pair) (refa refb : Dstring) (noa nva nob nvb : ℕ) (T1a T1b : ℕ → ℕ → K)
    (T2aa T2ab T2bb : ℕ → ℕ → ℕ → ℕ → K) (C : List K) : R (List K) :=
  loop (List.range noa) (fun i C =>
    loop (List.range' (i + 1) (noa - (i + 1))) (fun j C =>
      loop (List.range noa) (fun k C =>
        loop (List.range nob) (fun l C =>
          loop (List.range nva) (fun a C =>
            loop (List.range' (a + 1) (nva - (a + 1))) (fun b C =>
              loop (List.range nva) (fun c C =>
                loop (List.range nvb) (fun d C =>
                  (refa.excite i (a + noa)).bind fun rsa1 =>
                  match rsa1 with
                  | none => .ok C
                  | some (sa1, astr) =>
                    (astr.excite j (b + noa)).bind fun rsa2 =>
                    match rsa2 with
                    | none => .ok C
                    | some (sa2, astr) =>
                      (astr.excite k (c + noa)).bind fun rsa3 =>
                      (refb.excite l (d + nob)).bind fun rsb1 =>
                      match rsa3 with
                      | none => .ok C
                      | some (sa3, astr) =>
                        match rsb1 with
                        | none => .ok C
                        | some (sb1, bstr) =>
                          (index2 basis astr bstr).bind fun idx => addAt C idx ((((((sa1 : K) * (sa2 : K)) * (sa3 : K)) * (sb1 : K)) * (T2aa a b i j)) * (T2ab c d k l))) C) C) C) C) C) C) C) C

/-- cqcpy/ci_utils.py:914-932 -/
def u_T2aa_T2bb (basis : List Pair) (refa refb : Dstring) (noa nva nob nvb : ℕ) (T1a T1b : ℕ → ℕ → K)
    (T2aa T2ab T2bb : ℕ → ℕ → ℕ → ℕ → K) (C : List K) : R (List K) :=
  loop (List.range noa) (fun i C =>
    loop (List.range' (i + 1) (noa - (i + 1))) (fun j C =>
      loop (List.range nob) (fun k C =>
        loop (List.range' (k + 1) (nob - (k + 1))) (fun l C =>
          loop (List.range nva) (fun a C =>
            loop (List.range' (a + 1) (nva - (a + 1))) (fun b C =>
              loop (List.range nvb) (fun c C =>
                loop (List.range' (c + 1) (nvb - (c + 1))) (fun d C =>
                  (refa.excite i (a + noa)).bind fun rsa1 =>
                  match rsa1 with
                  | none => .ok C
                  | some (sa1, astr) =>
                    (astr.excite j (b + noa)).bind fun rsa2 =>
                    (refb.excite k (c + nob)).bind fun rsb1 =>
                    match rsb1 with
                    | none => .ok C
                    | some (sb1, bstr) =>
                      (bstr.excite l (d + nob)).bind fun rsb2 =>
                      match rsa2 with
                      | none => .ok C
                      | some (sa2, astr) =>
                        match rsb2 with
                        | none => .ok C
                        | some (sb2, bstr) =>
                          (index2 basis astr bstr).bind fun idx => addAt C idx ((((((sa1 : K) * (sa2 : K)) * (sb1 : K)) * (sb2 : K)) * (T2aa a b i j)) * (T2bb c d k l))) C) C) C) C) C) C) C) C

/-- cqcpy/ci_utils.py:934-952 -/
def u_T2ab_T2ab (basis : List Pair) (refa refb : Dstring) (noa nva nob nvb : ℕ) (T1a T1b : ℕ → ℕ → K)
    (T2aa T2ab T2bb : ℕ → ℕ → ℕ → ℕ → K) (C : List K) : R (List K) :=
  loop (List.range noa) (fun i C =>
    loop (List.range nob) (fun j C =>
      loop (List.range noa) (fun k C =>
        loop (List.range nob) (fun l C =>
          loop (List.range nva) (fun a C =>
            loop (List.range nvb) (fun b C =>
              loop (List.range nva) (fun c C =>
                loop (List.range nvb) (fun d C =>
                  (refa.excite i (a + noa)).bind fun rsa1 =>
                  match rsa1 with
                  | none => .ok C
                  | some (sa1, astr) =>
                    (astr.excite k (c + noa)).bind fun rsa2 =>
                    (refb.excite j (b + nob)).bind fun rsb1 =>
                    match rsb1 with
                    | none => .ok C
                    | some (sb1, bstr) =>
                      (bstr.excite l (d + nob)).bind fun rsb2 =>
                      match rsa2 with
                      | none => .ok C
                      | some (sa2, astr) =>
                        match rsb2 with
                        | none => .ok C
                        | some (sb2, bstr) =>
                          (index2 basis astr bstr).bind fun idx => addAt C idx (((((((sa1 : K) * (sa2 : K)) * (sb1 : K)) * (sb2 : K)) * (T2ab a b i j)) * (T2ab c d k l)) / 2)) C) C) C) C) C) C) C) C

/-- cqcpy/ci_utils.py:954-972 -/
def u_T2ab_T2bb (basis : List Pair) (refa refb : Dstring) (noa nva nob nvb : ℕ) (T1a T1b : ℕ → ℕ → K)
    (T2aa T2ab T2bb : ℕ → ℕ → ℕ → ℕ → K) (C : List K) : R (List K) :=
  loop (List.range noa) (fun i C =>
    loop (List.range nob) (fun j C =>
      loop (List.range nob) (fun k C =>
        loop (List.range' (k + 1) (nob - (k + 1))) (fun l C =>
          loop (List.range nva) (fun a C =>
            loop (List.range nvb) (fun b C =>
              loop (List.range nvb) (fun c C =>
                loop (List.range' (c + 1) (nvb - (c + 1))) (fun d C =>
                  (refa.excite i (a + noa)).bind fun rsa =>
                  (refb.excite j (b + nob)).bind fun rs1 =>
                  match rs1 with
                  | none => .ok C
                  | some (s1, bstr) =>
                    (bstr.excite k (c + nob)).bind fun rs2 =>
                    match rs2 with
                    | none => .ok C
                    | some (s2, bstr) =>
                      (bstr.excite l (d + nob)).bind fun rs3 =>
                      match rsa with
                      | none => .ok C
                      | some (sa, astr) =>
                        match rs3 with
                        | none => .ok C
                        | some (s3, bstr) =>
                          (index2 basis astr bstr).bind fun idx => addAt C idx ((((((sa : K) * (s1 : K)) * (s2 : K)) * (s3 : K)) * (T2ab a b i j)) * (T2bb c d k l))) C) C) C) C) C) C) C) C

/-- cqcpy/ci_utils.py:974-994 -/
def u_T2bb_T2bb (basis : List Pair) (refa refb : Dstring) (noa nva nob nvb : ℕ) (T1a T1b : ℕ → ℕ → K)
    (T2aa T2ab T2bb : ℕ → ℕ → ℕ → ℕ → K) (C : List K) : R (List K) :=
  loop (List.range nob) (fun i C =>
    loop (List.range' (i + 1) (nob - (i + 1))) (fun j C =>
      loop (List.range nob) (fun k C =>
        loop (List.range' (k + 1) (nob - (k + 1))) (fun l C =>
          loop (List.range nvb) (fun a C =>
            loop (List.range' (a + 1) (nvb - (a + 1))) (fun b C =>
              loop (List.range nvb) (fun c C =>
                loop (List.range' (c + 1) (nvb - (c + 1))) (fun d C =>
                  (refb.excite i (a + nob)).bind fun rs1 =>
                  match rs1 with
                  | none => .ok C
                  | some (s1, bstr) =>
                    (bstr.excite j (b + nob)).bind fun rs2 =>
                    match rs2 with
                    | none => .ok C
                    | some (s2, bstr) =>
                      (bstr.excite k (c + nob)).bind fun rs3 =>
                      match rs3 with
                      | none => .ok C
                      | some (s3, bstr) =>
                        (bstr.excite l (d + nob)).bind fun rs4 =>
                        match rs4 with
                        | none => .ok C
                        | some (s4, bstr) =>
                          (index2 basis refa bstr).bind fun idx => addAt C idx (((((((s1 : K) * (s2 : K)) * (s3 : K)) * (s4 : K)) * (T2bb a b i j)) * (T2bb c d k l)) / 2)) C) C) C) C) C) C) C) C

/-- cqcpy/ci_utils.py:997-1017 -/
def u_T1a_T1a_T2aa (basis : List Pair) (refa refb : Dstring) (noa nva nob nvb : ℕ) (T1a T1b : ℕ → ℕ → K)
    (T2aa T2ab T2bb : ℕ → ℕ → ℕ → ℕ → K) (C : List K) : R (List K) :=
  loop (List.range noa) (fun i C =>
    loop (List.range noa) (fun j C =>
      loop (List.range noa) (fun k C =>
        loop (List.range' (k + 1) (noa - (k + 1))) (fun l C =>
          loop (List.range nva) (fun a C =>
            loop (List.range nva) (fun b C =>
              loop (List.range nva) (fun c C =>
                loop (List.range' (c + 1) (nva - (c + 1))) (fun d C =>
                  (refa.excite i (a + noa)).bind fun rsa1 =>
                  match rsa1 with
                  | none => .ok C
                  | some (sa1, astr) =>
                    (astr.excite j (b + noa)).bind fun rsa2 =>
                    match rsa2 with
                    | none => .ok C
                    | some (sa2, astr) =>
                      (astr.excite k (c + noa)).bind fun rsa3 =>
                      match rsa3 with
                      | none => .ok C
                      | some (sa3, astr) =>
                        (astr.excite l (d + noa)).bind fun rsa4 =>
                        match rsa4 with
                        | none => .ok C
                        | some (sa4, astr) =>
                          (index2 basis astr refb).bind fun idx => addAt C idx ((((((((sa1 : K) * (sa2 : K)) * (sa3 : K)) * (sa4 : K)) * (T1a a i)) * (T1a b j)) * (T2aa c d k l)) / 2)) C) C) C) C) C) C) C) C

/-- cqcpy/ci_utils.py:1019-1037 -/
def u_T1a_T1a_T2ab (basis : List Pair) (refa refb : Dstring) (noa nva nob nvb : ℕ) (T1a T1b : ℕ → ℕ → K)
    (T2aa T2ab T2bb : ℕ → ℕ → ℕ → ℕ → K) (C : List K) : R (List K) :=
  loop (List.range noa) (fun i C =>
    loop (List.range noa) (fun j C =>
      loop (List.range noa) (fun k C =>
        loop (List.range nob) (fun l C =>
          loop (List.range nva) (fun a C =>
            loop (List.range nva) (fun b C =>
              loop (List.range nva) (fun c C =>
                loop (List.range nvb) (fun d C =>
                  (refa.excite i (a + noa)).bind fun rsa1 =>
                  match rsa1 with
                  | none => .ok C
                  | some (sa1, astr) =>
                    (astr.excite j (b + noa)).bind fun rsa2 =>
                    match rsa2 with
                    | none => .ok C
                    | some (sa2, astr) =>
                      (astr.excite k (c + noa)).bind fun rsa3 =>
                      (refb.excite l (d + nob)).bind fun rsb1 =>
                      match rsa3 with
                      | none => .ok C
                      | some (sa3, astr) =>
                        match rsb1 with
                        | none => .ok C
                        | some (sb1, bstr) =>
                          (index2 basis astr bstr).bind fun idx => addAt C idx ((((((((sa1 : K) * (sa2 : K)) * (sa3 : K)) * (sb1 : K)) * (T1a a i)) * (T1a b j)) * (T2ab c d k l)) / 2)) C) C) C) C) C) C) C) C

/-- cqcpy/ci_utils.py:1039-1057 -/
def u_T1a_T1b_T2aa (basis : List Pair) (refa refb : Dstring) (noa nva nob nvb : ℕ) (T1a T1b : ℕ → ℕ → K)
    (T2aa T2ab T2bb : ℕ → ℕ → ℕ → ℕ → K) (C : List K) : R (List K) :=
  loop (List.range noa) (fun i C =>
    loop (List.range nob) (fun j C =>
      loop (List.range noa) (fun k C =>
        loop (List.range' (k + 1) (noa - (k + 1))) (fun l C =>
          loop (List.range nva) (fun a C =>
            loop (List.range nvb) (fun b C =>
              loop (List.range nva) (fun c C =>
                loop (List.range' (c + 1) (nva - (c + 1))) (fun d C =>
                  (refa.excite i (a + noa)).bind fun rsa1 =>
                  match rsa1 with
                  | none => .ok C
                  | some (sa1, astr) =>
                    (astr.excite k (c + noa)).bind fun rsa2 =>
                    match rsa2 with
                    | none => .ok C
                    | some (sa2, astr) =>
                      (astr.excite l (d + noa)).bind fun rsa3 =>
                      (refb.excite j (b + nob)).bind fun rsb1 =>
                      match rsa3 with
                      | none => .ok C
                      | some (sa3, astr) =>
                        match rsb1 with
                        | none => .ok C
                        | some (sb1, bstr) =>
                          (index2 basis astr bstr).bind fun idx => addAt C idx (((((((sa1 : K) * (sa2 : K)) * (sa3 : K)) * (sb1 : K)) * (T1a a i)) * (T1b b j)) * (T2aa c d k l))) C) C) C) C) C) C) C) C

/-- cqcpy/ci_utils.py:1059-1079 -/
def u_T1a_T1a_T2bb (basis : List Pair) (refa refb : Dstring) (noa nva nob nvb : ℕ) (T1a T1b : ℕ → ℕ → K)
    (T2aa T2ab T2bb : ℕ → ℕ → ℕ → ℕ → K) (C : List K) : R (List K) :=
  loop (List.range noa) (fun i C =>
    loop (List.range noa) (fun j C =>
      loop (List.range nob) (fun k C =>
        loop (List.range' (k + 1) (nob - (k + 1))) (fun l C =>
          loop (List.range nva) (fun a C =>
            loop (List.range nva) (fun b C =>
              loop (List.range nvb) (fun c C =>
                loop (List.range' (c + 1) (nvb - (c + 1))) (fun d C =>
                  (refa.excite i (a + noa)).bind fun rsa1 =>
                  match rsa1 with
                  | none => .ok C
                  | some (sa1, astr) =>
                    (astr.excite j (b + noa)).bind fun rsa2 =>
                    match rsa2 with
                    | none => .ok C
                    | some (sa2, astr) =>
                      (refb.excite k (c + nob)).bind fun rsb1 =>
                      match rsb1 with
                      | none => .ok C
                      | some (sb1, bstr) =>
                        (bstr.excite l (d + nob)).bind fun rsb2 =>
                        match rsb2 with
                        | none => .ok C
                        | some (sb2, bstr) =>
                          (index2 basis astr bstr).bind fun idx => addAt C idx ((((((((sa1 : K) * (sa2 : K)) * (sb1 : K)) * (sb2 : K)) * (T1a a i)) * (T1a b j)) * (T2bb c d k l)) / 2)) C) C) C) C) C) C) C) C

/-- cqcpy/ci_utils.py:1081-1099 -/
def u_T1a_T1b_T2ab (basis : List Pair) (refa refb : Dstring) (noa nva nob nvb : ℕ) (T1a T1b : ℕ → ℕ → K)
    (T2aa T2ab T2bb : ℕ → ℕ → ℕ → ℕ → K) (C : List K) : R (List K) :=
  loop (List.range noa) (fun i C =>
    loop (List.range nob) (fun j C =>
      loop (List.range noa) (fun k C =>
        loop (List.range nob) (fun l C =>
          loop (List.range nva) (fun a C =>
            loop (List.range nvb) (fun b C =>
              loop (List.range nva) (fun c C =>
                loop (List.range nvb) (fun d C =>
                  (refa.excite i (a + noa)).bind fun rsa1 =>
                  match rsa1 with
                  | none => .ok C
                  | some (sa1, astr) =>
                    (astr.excite k (c + noa)).bind fun rsa2 =>
                    (refb.excite j (b + nob)).bind fun rsb1 =>
                    match rsb1 with
                    | none => .ok C
                    | some (sb1, bstr) =>
                      (bstr.excite l (d + nob)).bind fun rsb2 =>
                      match rsa2 with
                      | none => .ok C
                      | some (sa2, astr) =>
                        match rsb2 with
                        | none => .ok C
                        | some (sb2, bstr) =>
                          (index2 basis astr bstr).bind fun idx => addAt C idx (((((((sa1 : K) * (sa2 : K)) * (sb1 : K)) * (sb2 : K)) * (T1a a i)) * (T1b b j)) * (T2ab c d k l))) C) C) C) C) C) C) C) C

/-- cqcpy/ci_utils.py:1101-1119 -/
def u_T1a_T1b_T2bb (basis : List Pair) (refa refb : Dstring) (noa nva nob nvb : ℕ) (T1a T1b : ℕ → ℕ → K)
    (T2aa T2ab T2bb : ℕ → ℕ → ℕ → ℕ → K) (C : List K) : R (List K) :=
  loop (List.range noa) (fun i C =>
    loop (List.range nob) (fun j C =>
      loop (List.range nob) (fun k C =>
        loop (List.range' (k + 1) (nob - (k + 1))) (fun l C =>
          loop (List.range nva) (fun a C =>
            loop (List.range nvb) (fun b C =>
              loop (List.range nvb) (fun c C =>
                loop (List.range' (c + 1) (nvb - (c + 1))) (fun d C =>
                  (refa.excite i (a + noa)).bind fun rsa =>
                  (refb.excite j (b + nob)).bind fun rs1 =>
                  match rs1 with
                  | none => .ok C
                  | some (s1, bstr) =>
                    (bstr.excite k (c + nob)).bind fun rs2 =>
                    match rs2 with
                    | none => .ok C
                    | some (s2, bstr) =>
                      (bstr.excite l (d + nob)).bind fun rs3 =>
                      match rsa with
                      | none => .ok C
                      | some (sa, astr) =>
                        match rs3 with
                        | none => .ok C
                        | some (s3, bstr) =>
                          (index2 basis astr bstr).bind fun idx => addAt C idx (((((((sa : K) * (s1 : K)) * (s2 : K)) * (s3 : K)) * (T1a a i)) * (T1b b j)) * (T2bb c d k l))) C) C) C) C) C) C) C) C

/-- cqcpy/ci_utils.py:1121-1139 -/
def u_T1b_T1b_T2ab (basis : List Pair) (refa refb : Dstring) (noa nva nob nvb : ℕ) (T1a T1b : ℕ → ℕ → K)
    (T2aa T2ab T2bb : ℕ → ℕ → ℕ → ℕ → K) (C : List K) : R (List K) :=
  loop (List.range nob) (fun i C =>
    loop (List.range nob) (fun j C =>
      loop (List.range noa) (fun k C =>
        loop (List.range nob) (fun l C =>
          loop (List.range nvb) (fun a C =>
            loop (List.range nvb) (fun b C =>
              loop (List.range nva) (fun c C =>
                loop (List.range nvb) (fun d C =>
                  (refa.excite k (c + noa)).bind fun rsa =>
                  (refb.excite i (a + nob)).bind fun rs1 =>
                  match rs1 with
                  | none => .ok C
                  | some (s1, bstr) =>
                    (bstr.excite j (b + nob)).bind fun rs2 =>
                    match rs2 with
                    | none => .ok C
                    | some (s2, bstr) =>
                      (bstr.excite l (d + nob)).bind fun rs3 =>
                      match rsa with
                      | none => .ok C
                      | some (sa, astr) =>
                        match rs3 with
                        | none => .ok C
                        | some (s3, bstr) =>
                          (index2 basis astr bstr).bind fun idx => addAt C idx ((((((((s1 : K) * (s2 : K)) * (s3 : K)) * (sa : K)) * (T1b a i)) * (T1b b j)) * (T2ab c d k l)) / 2)) C) C) C) C) C) C) C) C

/-- cqcpy/ci_utils.py:1141-1161 -/
def u_T1b_T1b_T2bb (basis : List Pair) (refa refb : Dstring) (noa nva nob nvb : ℕ) (T1a T1b : ℕ → ℕ → K)
    (T2aa T2ab T2bb : ℕ → ℕ → ℕ → ℕ → K) (C : List K) : R (List K) :=
  loop (List.range nob) (fun i C =>
    loop (List.range nob) (fun j C =>
      loop (List.range nob) (fun k C =>
        loop (List.range' (k + 1) (nob - (k + 1))) (fun l C =>
          loop (List.range nvb) (fun a C =>
            loop (List.range nvb) (fun b C =>
              loop (List.range nvb) (fun c C =>
                loop (List.range' (c + 1) (nvb - (c + 1))) (fun d C =>
                  (refb.excite i (a + nob)).bind fun rs1 =>
                  match rs1 with
                  | none => .ok C
                  | some (s1, bstr) =>
                    (bstr.excite j (b + nob)).bind fun rs2 =>
                    match rs2 with
                    | none => .ok C
                    | some (s2, bstr) =>
                      (bstr.excite k (c + nob)).bind fun rs3 =>
                      match rs3 with
                      | none => .ok C
                      | some (s3, bstr) =>
                        (bstr.excite l (d + nob)).bind fun rs4 =>
                        match rs4 with
                        | none => .ok C
                        | some (s4, bstr) =>
                          (index2 basis refa bstr).bind fun idx => addAt C idx ((((((((s1 : K) * (s2 : K)) * (s3 : K)) * (s4 : K)) * (T1b a i)) * (T1b b j)) * (T2bb c d k l)) / 2)) C) C) C) C) C) C) C) C

/-- cqcpy/ci_utils.py:1164-1184 -/
def u_T1a_T1a_T1a_T1a (basis : List Pair) (refa refb : Dstring) (noa nva nob nvb : ℕ) (T1a T1b : ℕ → ℕ → K)
    (T2aa T2ab T2bb : ℕ → ℕ → ℕ → ℕ → K) (C : List K) : R (List K) :=
  loop (List.range noa) (fun i C =>
    loop (List.range noa) (fun j C =>
      loop (List.range noa) (fun k C =>
        loop (List.range noa) (fun l C =>
          loop (List.range nva) (fun a C =>
            loop (List.range nva) (fun b C =>
              loop (List.range nva) (fun c C =>
                loop (List.range nva) (fun d C =>
                  (refa.excite i (a + noa)).bind fun rsa1 =>
                  match rsa1 with
                  | none => .ok C
                  | some (sa1, astr) =>
                    (astr.excite j (b + noa)).bind fun rsa2 =>
                    match rsa2 with
                    | none => .ok C
                    | some (sa2, astr) =>
                      (astr.excite k (c + noa)).bind fun rsa3 =>
                      match rsa3 with
                      | none => .ok C
                      | some (sa3, astr) =>
                        (astr.excite l (d + noa)).bind fun rsa4 =>
                        match rsa4 with
                        | none => .ok C
                        | some (sa4, astr) =>
                          (index2 basis astr refb).bind fun idx => addAt C idx (((((((((sa1 : K) * (sa2 : K)) * (sa3 : K)) * (sa4 : K)) * (T1a a i)) * (T1a b j)) * (T1a c k)) * (T1a d l)) / 24)) C) C) C) C) C) C) C) C

/-- cqcpy/ci_utils.py:1186-1204 -/
def u_T1a_T1a_T1a_T1b (basis : List Pair) (refa refb : Dstring) (noa nva nob nvb : ℕ) (T1a T1b : ℕ → ℕ → K)
    (T2aa T2ab T2bb : ℕ → ℕ → ℕ → ℕ → K) (C : List K) : R (List K) :=
  loop (List.range noa) (fun i C =>
    loop (List.range noa) (fun j C =>
      loop (List.range noa) (fun k C =>
        loop (List.range nob) (fun l C =>
          loop (List.range nva) (fun a C =>
            loop (List.range nva) (fun b C =>
              loop (List.range nva) (fun c C =>
                loop (List.range nvb) (fun d C =>
                  (refa.excite i (a + noa)).bind fun rsa1 =>
                  match rsa1 with
                  | none => .ok C
                  | some (sa1, astr) =>
                    (astr.excite j (b + noa)).bind fun rsa2 =>
                    match rsa2 with
                    | none => .ok C
                    | some (sa2, astr) =>
                      (astr.excite k (c + noa)).bind fun rsa3 =>
                      (refb.excite l (d + nob)).bind fun rsb1 =>
                      match rsa3 with
                      | none => .ok C
                      | some (sa3, astr) =>
                        match rsb1 with
                        | none => .ok C
                        | some (sb1, bstr) =>
                          (index2 basis astr bstr).bind fun idx => addAt C idx (((((((((sa1 : K) * (sa2 : K)) * (sa3 : K)) * (sb1 : K)) * (T1a a i)) * (T1a b j)) * (T1a c k)) * (T1b d l)) / 6)) C) C) C) C) C) C) C) C

/-- cqcpy/ci_utils.py:1206-1224 -/
def u_T1a_T1a_T1b_T1b (basis : List Pair) (refa refb : Dstring) (noa nva nob nvb : ℕ) (T1a T1b : ℕ → ℕ → K)
    (T2aa T2ab T2bb : ℕ → ℕ → ℕ → ℕ → K) (C : List K) : R (List K) :=
  loop (List.range noa) (fun i C =>
    loop (List.range noa) (fun j C =>
      loop (List.range nob) (fun k C =>
        loop (List.range nob) (fun l C =>
          loop (List.range nva) (fun a C =>
            loop (List.range nva) (fun b C =>
              loop (List.range nvb) (fun c C =>
                loop (List.range nvb) (fun d C =>
                  (refa.excite i (a + noa)).bind fun rsa1 =>
                  match rsa1 with
                  | none => .ok C
                  | some (sa1, astr) =>
                    (astr.excite j (b + noa)).bind fun rsa2 =>
                    (refb.excite k (c + nob)).bind fun rsb1 =>
                    match rsb1 with
                    | none => .ok C
                    | some (sb1, bstr) =>
                      (bstr.excite l (d + nob)).bind fun rsb2 =>
                      match rsa2 with
                      | none => .ok C
                      | some (sa2, astr) =>
                        match rsb2 with
                        | none => .ok C
                        | some (sb2, bstr) =>
                          (index2 basis astr bstr).bind fun idx => addAt C idx (((((((((sa1 : K) * (sa2 : K)) * (sb1 : K)) * (sb2 : K)) * (T1a a i)) * (T1a b j)) * (T1b c k)) * (T1b d l)) / 4)) C) C) C) C) C) C) C) C

/-- cqcpy/ci_utils.py:1226-1244 -/
def u_T1a_T1b_T1b_T1b (basis : List Pair) (refa refb : Dstring) (noa nva nob nvb : ℕ) (T1a T1b : ℕ → ℕ → K)
    (T2aa T2ab T2bb : ℕ → ℕ → ℕ → ℕ → K) (C : List K) : R (List K) :=
  loop (List.range noa) (fun i C =>
    loop (List.range nob) (fun j C =>
      loop (List.range nob) (fun k C =>
        loop (List.range nob) (fun l C =>
          loop (List.range nva) (fun a C =>
            loop (List.range nvb) (fun b C =>
              loop (List.range nvb) (fun c C =>
                loop (List.range nvb) (fun d C =>
                  (refa.excite i (a + noa)).bind fun rsa =>
                  (refb.excite j (b + nob)).bind fun rs1 =>
                  match rs1 with
                  | none => .ok C
                  | some (s1, bstr) =>
                    (bstr.excite k (c + nob)).bind fun rs2 =>
                    match rs2 with
                    | none => .ok C
                    | some (s2, bstr) =>
                      (bstr.excite l (d + nob)).bind fun rs3 =>
                      match rsa with
                      | none => .ok C
                      | some (sa, astr) =>
                        match rs3 with
                        | none => .ok C
                        | some (s3, bstr) =>
                          (index2 basis astr bstr).bind fun idx => addAt C idx (((((((((sa : K) * (s1 : K)) * (s2 : K)) * (s3 : K)) * (T1a a i)) * (T1b b j)) * (T1b c k)) * (T1b d l)) / 6)) C) C) C) C) C) C) C) C

/-- cqcpy/ci_utils.py:1246-1266 -/
def u_T1b_T1b_T1b_T1b (basis : List Pair) (refa refb : Dstring) (noa nva nob nvb : ℕ) (T1a T1b : ℕ → ℕ → K)
    (T2aa T2ab T2bb : ℕ → ℕ → ℕ → ℕ → K) (C : List K) : R (List K) :=
  loop (List.range nob) (fun i C =>
    loop (List.range nob) (fun j C =>
      loop (List.range nob) (fun k C =>
        loop (List.range nob) (fun l C =>
          loop (List.range nvb) (fun a C =>
            loop (List.range nvb) (fun b C =>
              loop (List.range nvb) (fun c C =>
                loop (List.range nvb) (fun d C =>
                  (refb.excite i (a + nob)).bind fun rs1 =>
                  match rs1 with
                  | none => .ok C
                  | some (s1, bstr) =>
                    (bstr.excite j (b + nob)).bind fun rs2 =>
                    match rs2 with
                    | none => .ok C
                    | some (s2, bstr) =>
                      (bstr.excite k (c + nob)).bind fun rs3 =>
                      match rs3 with
                      | none => .ok C
                      | some (s3, bstr) =>
                        (bstr.excite l (d + nob)).bind fun rs4 =>
                        match rs4 with
                        | none => .ok C
                        | some (s4, bstr) =>
                          (index2 basis refa bstr).bind fun idx => addAt C idx (((((((((s1 : K) * (s2 : K)) * (s3 : K)) * (s4 : K)) * (T1b a i)) * (T1b b j)) * (T1b c k)) * (T1b d l)) / 24)) C) C) C) C) C) C) C) C

/-- cqcpy/ci_utils.py:418-597 (`gmakeCfromT`). -/
def gmakeCfromT (no nv : ℕ) (T1 : ℕ → ℕ → K) (T2 : ℕ → ℕ → ℕ → ℕ → K) (order : ℕ := 2) (occ? : Option (List ℤ) := none) :
    R (List K) := do
  let nmo := no + nv
  if order < 1 then throw .exception
  let basis ← (if order = 1 then gcis_basis nmo no
    else if order = 2 then gcisd_basis nmo no
    else if order = 3 then gcisdt_basis nmo no
    else if order = 4 then gcisdtq_basis nmo no
    else throw .exception : R (List (Option Dstring)))
  let occ := occ?.getD (aufbau (nmo / 2) no)
  let vir := virt occ
  let iocc := positions occ
  let ivir := positions vir
  let ref ← Dstring.new nmo occ
  let C : List K := List.replicate basis.length 0
  let C ← (if 0 < C.length then return C.set 0 1 else throw .index : R (List K))
  let C ← g_T1 basis ref iocc ivir T1 T2 C
  let C ← (if order ≥ 2 then (do
    let C ← g_T2 basis ref iocc ivir T1 T2 C
    let C ← g_T1_T1 basis ref iocc ivir T1 T2 C
    return C) else return C : R (List K))
  let C ← (if order ≥ 3 then (do
    let C ← g_T1_T2 basis ref iocc ivir T1 T2 C
    let C ← g_T1_T1_T1 basis ref iocc ivir T1 T2 C
    return C) else return C : R (List K))
  let C ← (if order ≥ 4 then (do
    let C ← g_T2_T2 basis ref iocc ivir T1 T2 C
    let C ← g_T1_T1_T2 basis ref iocc ivir T1 T2 C
    let C ← g_T1_T1_T1_T1 basis ref iocc ivir T1 T2 C
    return C) else return C : R (List K))
  return C

/-- cqcpy/ci_utils.py:600-1269 (`makeCfromT`). -/
def makeCfromT (noa nva nob nvb : ℕ) (T1a T1b : ℕ → ℕ → K) (T2aa T2ab T2bb : ℕ → ℕ → ℕ → ℕ → K) (order : ℕ := 2) :
    R (List K) := do
  let na := noa + nva
  let nb := nob + nvb
  if na ≠ nb then throw .assertion
  if order < 1 then throw .exception
  let basis ← (if order = 1 then ucis_basis na noa nob
    else if order = 2 then ucisd_basis na noa nob
    else if order = 3 then ucisdt_basis na noa nob
    else if order = 4 then ucisdtq_basis na noa nob
    else throw .exception : R (List Pair))
  let refa ← Dstring.new na (aufbau na noa)
  let refb ← Dstring.new nb (aufbau nb nob)
  let C : List K := List.replicate basis.length 0
  let C ← (if 0 < C.length then return C.set 0 1 else throw .index : R (List K))
  let C ← u_T1a basis refa refb noa nva nob nvb T1a T1b T2aa T2ab T2bb C
  let C ← u_T1b basis refa refb noa nva nob nvb T1a T1b T2aa T2ab T2bb C
  let C ← (if order ≥ 2 then (do
    let C ← u_T2aa basis refa refb noa nva nob nvb T1a T1b T2aa T2ab T2bb C
    let C ← u_T2bb basis refa refb noa nva nob nvb T1a T1b T2aa T2ab T2bb C
    let C ← u_T2ab basis refa refb noa nva nob nvb T1a T1b T2aa T2ab T2bb C
    let C ← u_T1a_T1a basis refa refb noa nva nob nvb T1a T1b T2aa T2ab T2bb C
    let C ← u_T1b_T1b basis refa refb noa nva nob nvb T1a T1b T2aa T2ab T2bb C
    let C ← u_T1a_T1b basis refa refb noa nva nob nvb T1a T1b T2aa T2ab T2bb C
    return C) else return C : R (List K))
  let C ← (if order ≥ 3 then (do
    let C ← u_T1a_T2aa basis refa refb noa nva nob nvb T1a T1b T2aa T2ab T2bb C
    let C ← u_T1a_T2ab basis refa refb noa nva nob nvb T1a T1b T2aa T2ab T2bb C
    let C ← u_T1b_T2aa basis refa refb noa nva nob nvb T1a T1b T2aa T2ab T2bb C
    let C ← u_T1a_T2bb basis refa refb noa nva nob nvb T1a T1b T2aa T2ab T2bb C
    let C ← u_T1b_T2ab basis refa refb noa nva nob nvb T1a T1b T2aa T2ab T2bb C
    let C ← u_T1b_T2bb basis refa refb noa nva nob nvb T1a T1b T2aa T2ab T2bb C
    let C ← u_T1a_T1a_T1a basis refa refb noa nva nob nvb T1a T1b T2aa T2ab T2bb C
    let C ← u_T1a_T1a_T1b basis refa refb noa nva nob nvb T1a T1b T2aa T2ab T2bb C
    let C ← u_T1a_T1b_T1b basis refa refb noa nva nob nvb T1a T1b T2aa T2ab T2bb C
    let C ← u_T1b_T1b_T1b basis refa refb noa nva nob nvb T1a T1b T2aa T2ab T2bb C
    return C) else return C : R (List K))
  let C ← (if order ≥ 4 then (do
    let C ← u_T2aa_T2aa basis refa refb noa nva nob nvb T1a T1b T2aa T2ab T2bb C
    let C ← u_T2aa_T2ab basis refa refb noa nva nob nvb T1a T1b T2aa T2ab T2bb C
    let C ← u_T2aa_T2bb basis refa refb noa nva nob nvb T1a T1b T2aa T2ab T2bb C
    let C ← u_T2ab_T2ab basis refa refb noa nva nob nvb T1a T1b T2aa T2ab T2bb C
    let C ← u_T2ab_T2bb basis refa refb noa nva nob nvb T1a T1b T2aa T2ab T2bb C
    let C ← u_T2bb_T2bb basis refa refb noa nva nob nvb T1a T1b T2aa T2ab T2bb C
    let C ← u_T1a_T1a_T2aa basis refa refb noa nva nob nvb T1a T1b T2aa T2ab T2bb C
    let C ← u_T1a_T1a_T2ab basis refa refb noa nva nob nvb T1a T1b T2aa T2ab T2bb C
    let C ← u_T1a_T1b_T2aa basis refa refb noa nva nob nvb T1a T1b T2aa T2ab T2bb C
    let C ← u_T1a_T1a_T2bb basis refa refb noa nva nob nvb T1a T1b T2aa T2ab T2bb C
    let C ← u_T1a_T1b_T2ab basis refa refb noa nva nob nvb T1a T1b T2aa T2ab T2bb C
    let C ← u_T1a_T1b_T2bb basis refa refb noa nva nob nvb T1a T1b T2aa T2ab T2bb C
    let C ← u_T1b_T1b_T2ab basis refa refb noa nva nob nvb T1a T1b T2aa T2ab T2bb C
    let C ← u_T1b_T1b_T2bb basis refa refb noa nva nob nvb T1a T1b T2aa T2ab T2bb C
    let C ← u_T1a_T1a_T1a_T1a basis refa refb noa nva nob nvb T1a T1b T2aa T2ab T2bb C
    let C ← u_T1a_T1a_T1a_T1b basis refa refb noa nva nob nvb T1a T1b T2aa T2ab T2bb C
    let C ← u_T1a_T1a_T1b_T1b basis refa refb noa nva nob nvb T1a T1b T2aa T2ab T2bb C
    let C ← u_T1a_T1b_T1b_T1b basis refa refb noa nva nob nvb T1a T1b T2aa T2ab T2bb C
    let C ← u_T1b_T1b_T1b_T1b basis refa refb noa nva nob nvb T1a T1b T2aa T2ab T2bb C
    return C) else return C : R (List K))
  return C

end CI
