import Verif.Props.RecordsThreeC

/-!
# C79 for three states and two colours: programs with some instructions at B0
-/

namespace BB.Records

open Watch

theorem part32_1l2 :
    (fullPart 3 2 36 (1, false, 2)).all (checkAs plan32 rows32) = true := by decide +kernel

theorem part32_1r0 :
    (fullPart 3 2 36 (1, true, 0)).all (checkAs plan32 rows32) = true := by decide +kernel

theorem part32_1r1 :
    (fullPart 3 2 36 (1, true, 1)).all (checkAs plan32 rows32) = true := by decide +kernel

theorem part32_1r2 :
    (fullPart 3 2 36 (1, true, 2)).all (checkAs plan32 rows32) = true := by decide +kernel

end BB.Records
