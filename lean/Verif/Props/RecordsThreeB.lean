import Verif.Props.RecordsThreeA

/-!
# C79 for three states and two colours: programs with some instructions at B0
-/

namespace BB.Records

open Watch

theorem part32_0l0 :
    (fullPart 3 2 36 (0, false, 0)).all (checkAs plan32 rows32) = true := by decide +kernel

theorem part32_0l1 :
    (fullPart 3 2 36 (0, false, 1)).all (checkAs plan32 rows32) = true := by decide +kernel

theorem part32_0l2 :
    (fullPart 3 2 36 (0, false, 2)).all (checkAs plan32 rows32) = true := by decide +kernel

theorem part32_0r0 :
    (fullPart 3 2 36 (0, true, 0)).all (checkAs plan32 rows32) = true := by decide +kernel

theorem part32_0r1 :
    (fullPart 3 2 36 (0, true, 1)).all (checkAs plan32 rows32) = true := by decide +kernel

theorem part32_0r2 :
    (fullPart 3 2 36 (0, true, 2)).all (checkAs plan32 rows32) = true := by decide +kernel

end BB.Records
