/-! # ZETA_LOG_TABLE of src/tables.rs, lines 2989-3054

Each decimal literal `d.ddd…e-k` is the pair of its digits and the exponent of ten of its denominator. -/

namespace NumPrime.Tables

/-- `ZETA_LOG_TABLE`, src/tables.rs:2989-3054 -/
def zetaLogTable : List (Nat × Nat) :=
  [(4977003024707453704422733, 25), (1840341753914914169065753, 25), (7910987306733563428906564, 26),
   (3626225964922791950018066, 26), (1719438760265828980422498, 26), (8314614969275204922616318, 27),
   (4069066307412954990041509, 27), (2006378701528290387640086, 27), (9940808656690607904293788, 28),
   (4940665331469770151992527, 28), (2460562789788238511994034, 28), (1227058189115578395490813, 28),
   (6124625946826462580263595, 29), (3058776849645994703411761, 29), (1528214263611525392016002, 29),
   (7637168474654366096660528, 30), (3817285979154446217526640, 30), (1908210895918369244355067, 30),
   (9539615788513043827126850, 31), (4769328730553057084173103, 31), (2384504742984163710492051, 31),
   (1192199188586162536606321, 31), (5960818727469145156012688, 32), (2980350307052787786014558, 32),
   (1490155471733687385350177, 32), (7450711762078876717827681, 33), (3725334017849400424712395, 33),
   (1862659721778298369227706, 33), (9313274319859827471326702, 34), (4656629063949574247211838, 34),
   (2328311833405453758759852, 34), (1164155017202289036848590, 34), (5820772087733293568249733, 35),
   (2910385044454747711695271, 35), (1455192189093610577568052, 35), (7275959835031012016668332, 36),
   (3637979547372033417761987, 36), (1818989650305411709490059, 36), (9094947840259752504178820, 37),
   (4547473783041120242576761, 37), (2273736845824393946183985, 37), (1136868407680163290842639, 37),
   (5684341987627423858168184, 38), (2842170976889261614354352, 38), (1421085482803150734740459, 38),
   (7105427395210827461615018, 39), (3552713691337107622981434, 39), (1776356843579118836645811, 39),
   (8881784210930812248514214, 40), (4440892103143812146018826, 40), (2220446050798041906634718, 40),
   (1110223025141066149019450, 40), (5551115124845480986572498, 41), (2775557562136123907111332, 41),
   (1387778780972523194213624, 41), (6938893904544153439927978, 42), (3469446952165922542917276, 42),
   (1734723476047576545776400, 42), (8673617380119933001297893, 43), (4336808690020650566764225, 43),
   (2168404344997219811593044, 43), (1084202172494241415200165, 43), (5421010862456645841915045, 44),
   (2710505431223468975644559, 44)]

end NumPrime.Tables
