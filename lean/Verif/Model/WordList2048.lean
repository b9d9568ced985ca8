import Verif.Model.Py

namespace Aiootp.Mnemonic

/-- aiootp/_constants/datasets.py:372-499, part of `WORD_LIST`, as ASCII codes (generated from that file). -/
def words0 : List Bytes := [
  [97, 98, 97, 110, 100, 111, 110] /- abandon -/,
  [97, 98, 105, 108, 105, 116, 121] /- ability -/,
  [97, 98, 108, 101] /- able -/,
  [97, 98, 111, 117, 116] /- about -/,
  [97, 98, 111, 118, 101] /- above -/,
  [97, 98, 115, 101, 110, 116] /- absent -/,
  [97, 98, 115, 111, 114, 98] /- absorb -/,
  [97, 98, 115, 116, 114, 97, 99, 116] /- abstract -/,
  [97, 98, 115, 117, 114, 100] /- absurd -/,
  [97, 98, 117, 115, 101] /- abuse -/,
  [97, 99, 99, 101, 115, 115] /- access -/,
  [97, 99, 99, 105, 100, 101, 110, 116] /- accident -/,
  [97, 99, 99, 111, 117, 110, 116] /- account -/,
  [97, 99, 99, 117, 115, 101] /- accuse -/,
  [97, 99, 104, 105, 101, 118, 101] /- achieve -/,
  [97, 99, 105, 100] /- acid -/,
  [97, 99, 111, 117, 115, 116, 105, 99] /- acoustic -/,
  [97, 99, 113, 117, 105, 114, 101] /- acquire -/,
  [97, 99, 114, 111, 115, 115] /- across -/,
  [97, 99, 116] /- act -/,
  [97, 99, 116, 105, 111, 110] /- action -/,
  [97, 99, 116, 111, 114] /- actor -/,
  [97, 99, 116, 114, 101, 115, 115] /- actress -/,
  [97, 99, 116, 117, 97, 108] /- actual -/,
  [97, 100, 97, 112, 116] /- adapt -/,
  [97, 100, 100] /- add -/,
  [97, 100, 100, 105, 99, 116] /- addict -/,
  [97, 100, 100, 114, 101, 115, 115] /- address -/,
  [97, 100, 106, 117, 115, 116] /- adjust -/,
  [97, 100, 109, 105, 116] /- admit -/,
  [97, 100, 117, 108, 116] /- adult -/,
  [97, 100, 118, 97, 110, 99, 101] /- advance -/,
  [97, 100, 118, 105, 99, 101] /- advice -/,
  [97, 101, 114, 111, 98, 105, 99] /- aerobic -/,
  [97, 102, 102, 97, 105, 114] /- affair -/,
  [97, 102, 102, 111, 114, 100] /- afford -/,
  [97, 102, 114, 97, 105, 100] /- afraid -/,
  [97, 103, 97, 105, 110] /- again -/,
  [97, 103, 101] /- age -/,
  [97, 103, 101, 110, 116] /- agent -/,
  [97, 103, 114, 101, 101] /- agree -/,
  [97, 104, 101, 97, 100] /- ahead -/,
  [97, 105, 109] /- aim -/,
  [97, 105, 114] /- air -/,
  [97, 105, 114, 112, 111, 114, 116] /- airport -/,
  [97, 105, 115, 108, 101] /- aisle -/,
  [97, 108, 97, 114, 109] /- alarm -/,
  [97, 108, 98, 117, 109] /- album -/,
  [97, 108, 99, 111, 104, 111, 108] /- alcohol -/,
  [97, 108, 101, 114, 116] /- alert -/,
  [97, 108, 105, 101, 110] /- alien -/,
  [97, 108, 108] /- all -/,
  [97, 108, 108, 101, 121] /- alley -/,
  [97, 108, 108, 111, 119] /- allow -/,
  [97, 108, 109, 111, 115, 116] /- almost -/,
  [97, 108, 111, 110, 101] /- alone -/,
  [97, 108, 112, 104, 97] /- alpha -/,
  [97, 108, 114, 101, 97, 100, 121] /- already -/,
  [97, 108, 115, 111] /- also -/,
  [97, 108, 116, 101, 114] /- alter -/,
  [97, 108, 119, 97, 121, 115] /- always -/,
  [97, 109, 97, 116, 101, 117, 114] /- amateur -/,
  [97, 109, 97, 122, 105, 110, 103] /- amazing -/,
  [97, 109, 111, 110, 103] /- among -/,
  [97, 109, 111, 117, 110, 116] /- amount -/,
  [97, 109, 117, 115, 101, 100] /- amused -/,
  [97, 110, 97, 108, 121, 115, 116] /- analyst -/,
  [97, 110, 99, 104, 111, 114] /- anchor -/,
  [97, 110, 99, 105, 101, 110, 116] /- ancient -/,
  [97, 110, 103, 101, 114] /- anger -/,
  [97, 110, 103, 108, 101] /- angle -/,
  [97, 110, 103, 114, 121] /- angry -/,
  [97, 110, 105, 109, 97, 108] /- animal -/,
  [97, 110, 107, 108, 101] /- ankle -/,
  [97, 110, 110, 111, 117, 110, 99, 101] /- announce -/,
  [97, 110, 110, 117, 97, 108] /- annual -/,
  [97, 110, 111, 116, 104, 101, 114] /- another -/,
  [97, 110, 115, 119, 101, 114] /- answer -/,
  [97, 110, 116, 101, 110, 110, 97] /- antenna -/,
  [97, 110, 116, 105, 113, 117, 101] /- antique -/,
  [97, 110, 120, 105, 101, 116, 121] /- anxiety -/,
  [97, 110, 121] /- any -/,
  [97, 112, 97, 114, 116] /- apart -/,
  [97, 112, 111, 108, 111, 103, 121] /- apology -/,
  [97, 112, 112, 101, 97, 114] /- appear -/,
  [97, 112, 112, 108, 101] /- apple -/,
  [97, 112, 112, 114, 111, 118, 101] /- approve -/,
  [97, 112, 114, 105, 108] /- april -/,
  [97, 114, 99, 104] /- arch -/,
  [97, 114, 99, 116, 105, 99] /- arctic -/,
  [97, 114, 101, 97] /- area -/,
  [97, 114, 101, 110, 97] /- arena -/,
  [97, 114, 103, 117, 101] /- argue -/,
  [97, 114, 109] /- arm -/,
  [97, 114, 109, 101, 100] /- armed -/,
  [97, 114, 109, 111, 114] /- armor -/,
  [97, 114, 109, 121] /- army -/,
  [97, 114, 111, 117, 110, 100] /- around -/,
  [97, 114, 114, 97, 110, 103, 101] /- arrange -/,
  [97, 114, 114, 101, 115, 116] /- arrest -/,
  [97, 114, 114, 105, 118, 101] /- arrive -/,
  [97, 114, 114, 111, 119] /- arrow -/,
  [97, 114, 116] /- art -/,
  [97, 114, 116, 101, 102, 97, 99, 116] /- artefact -/,
  [97, 114, 116, 105, 115, 116] /- artist -/,
  [97, 114, 116, 119, 111, 114, 107] /- artwork -/,
  [97, 115, 107] /- ask -/,
  [97, 115, 112, 101, 99, 116] /- aspect -/,
  [97, 115, 115, 97, 117, 108, 116] /- assault -/,
  [97, 115, 115, 101, 116] /- asset -/,
  [97, 115, 115, 105, 115, 116] /- assist -/,
  [97, 115, 115, 117, 109, 101] /- assume -/,
  [97, 115, 116, 104, 109, 97] /- asthma -/,
  [97, 116, 104, 108, 101, 116, 101] /- athlete -/,
  [97, 116, 111, 109] /- atom -/,
  [97, 116, 116, 97, 99, 107] /- attack -/,
  [97, 116, 116, 101, 110, 100] /- attend -/,
  [97, 116, 116, 105, 116, 117, 100, 101] /- attitude -/,
  [97, 116, 116, 114, 97, 99, 116] /- attract -/,
  [97, 117, 99, 116, 105, 111, 110] /- auction -/,
  [97, 117, 100, 105, 116] /- audit -/,
  [97, 117, 103, 117, 115, 116] /- august -/,
  [97, 117, 110, 116] /- aunt -/,
  [97, 117, 116, 104, 111, 114] /- author -/,
  [97, 117, 116, 111] /- auto -/,
  [97, 117, 116, 117, 109, 110] /- autumn -/,
  [97, 118, 101, 114, 97, 103, 101] /- average -/,
  [97, 118, 111, 99, 97, 100, 111] /- avocado -/]

/-- aiootp/_constants/datasets.py:500-627, part of `WORD_LIST`, as ASCII codes (generated from that file). -/
def words1 : List Bytes := [
  [97, 118, 111, 105, 100] /- avoid -/,
  [97, 119, 97, 107, 101] /- awake -/,
  [97, 119, 97, 114, 101] /- aware -/,
  [97, 119, 97, 121] /- away -/,
  [97, 119, 101, 115, 111, 109, 101] /- awesome -/,
  [97, 119, 102, 117, 108] /- awful -/,
  [97, 119, 107, 119, 97, 114, 100] /- awkward -/,
  [97, 120, 105, 115] /- axis -/,
  [98, 97, 98, 121] /- baby -/,
  [98, 97, 99, 104, 101, 108, 111, 114] /- bachelor -/,
  [98, 97, 99, 111, 110] /- bacon -/,
  [98, 97, 100, 103, 101] /- badge -/,
  [98, 97, 103] /- bag -/,
  [98, 97, 108, 97, 110, 99, 101] /- balance -/,
  [98, 97, 108, 99, 111, 110, 121] /- balcony -/,
  [98, 97, 108, 108] /- ball -/,
  [98, 97, 109, 98, 111, 111] /- bamboo -/,
  [98, 97, 110, 97, 110, 97] /- banana -/,
  [98, 97, 110, 110, 101, 114] /- banner -/,
  [98, 97, 114] /- bar -/,
  [98, 97, 114, 101, 108, 121] /- barely -/,
  [98, 97, 114, 103, 97, 105, 110] /- bargain -/,
  [98, 97, 114, 114, 101, 108] /- barrel -/,
  [98, 97, 115, 101] /- base -/,
  [98, 97, 115, 105, 99] /- basic -/,
  [98, 97, 115, 107, 101, 116] /- basket -/,
  [98, 97, 116, 116, 108, 101] /- battle -/,
  [98, 101, 97, 99, 104] /- beach -/,
  [98, 101, 97, 110] /- bean -/,
  [98, 101, 97, 117, 116, 121] /- beauty -/,
  [98, 101, 99, 97, 117, 115, 101] /- because -/,
  [98, 101, 99, 111, 109, 101] /- become -/,
  [98, 101, 101, 102] /- beef -/,
  [98, 101, 102, 111, 114, 101] /- before -/,
  [98, 101, 103, 105, 110] /- begin -/,
  [98, 101, 104, 97, 118, 101] /- behave -/,
  [98, 101, 104, 105, 110, 100] /- behind -/,
  [98, 101, 108, 105, 101, 118, 101] /- believe -/,
  [98, 101, 108, 111, 119] /- below -/,
  [98, 101, 108, 116] /- belt -/,
  [98, 101, 110, 99, 104] /- bench -/,
  [98, 101, 110, 101, 102, 105, 116] /- benefit -/,
  [98, 101, 115, 116] /- best -/,
  [98, 101, 116, 114, 97, 121] /- betray -/,
  [98, 101, 116, 116, 101, 114] /- better -/,
  [98, 101, 116, 119, 101, 101, 110] /- between -/,
  [98, 101, 121, 111, 110, 100] /- beyond -/,
  [98, 105, 99, 121, 99, 108, 101] /- bicycle -/,
  [98, 105, 100] /- bid -/,
  [98, 105, 107, 101] /- bike -/,
  [98, 105, 110, 100] /- bind -/,
  [98, 105, 111, 108, 111, 103, 121] /- biology -/,
  [98, 105, 114, 100] /- bird -/,
  [98, 105, 114, 116, 104] /- birth -/,
  [98, 105, 116, 116, 101, 114] /- bitter -/,
  [98, 108, 97, 99, 107] /- black -/,
  [98, 108, 97, 100, 101] /- blade -/,
  [98, 108, 97, 109, 101] /- blame -/,
  [98, 108, 97, 110, 107, 101, 116] /- blanket -/,
  [98, 108, 97, 115, 116] /- blast -/,
  [98, 108, 101, 97, 107] /- bleak -/,
  [98, 108, 101, 115, 115] /- bless -/,
  [98, 108, 105, 110, 100] /- blind -/,
  [98, 108, 111, 111, 100] /- blood -/,
  [98, 108, 111, 115, 115, 111, 109] /- blossom -/,
  [98, 108, 111, 117, 115, 101] /- blouse -/,
  [98, 108, 117, 101] /- blue -/,
  [98, 108, 117, 114] /- blur -/,
  [98, 108, 117, 115, 104] /- blush -/,
  [98, 111, 97, 114, 100] /- board -/,
  [98, 111, 97, 116] /- boat -/,
  [98, 111, 100, 121] /- body -/,
  [98, 111, 105, 108] /- boil -/,
  [98, 111, 109, 98] /- bomb -/,
  [98, 111, 110, 101] /- bone -/,
  [98, 111, 110, 117, 115] /- bonus -/,
  [98, 111, 111, 107] /- book -/,
  [98, 111, 111, 115, 116] /- boost -/,
  [98, 111, 114, 100, 101, 114] /- border -/,
  [98, 111, 114, 105, 110, 103] /- boring -/,
  [98, 111, 114, 114, 111, 119] /- borrow -/,
  [98, 111, 115, 115] /- boss -/,
  [98, 111, 116, 116, 111, 109] /- bottom -/,
  [98, 111, 117, 110, 99, 101] /- bounce -/,
  [98, 111, 120] /- box -/,
  [98, 111, 121] /- boy -/,
  [98, 114, 97, 99, 107, 101, 116] /- bracket -/,
  [98, 114, 97, 105, 110] /- brain -/,
  [98, 114, 97, 110, 100] /- brand -/,
  [98, 114, 97, 115, 115] /- brass -/,
  [98, 114, 97, 118, 101] /- brave -/,
  [98, 114, 101, 97, 100] /- bread -/,
  [98, 114, 101, 101, 122, 101] /- breeze -/,
  [98, 114, 105, 99, 107] /- brick -/,
  [98, 114, 105, 100, 103, 101] /- bridge -/,
  [98, 114, 105, 101, 102] /- brief -/,
  [98, 114, 105, 103, 104, 116] /- bright -/,
  [98, 114, 105, 110, 103] /- bring -/,
  [98, 114, 105, 115, 107] /- brisk -/,
  [98, 114, 111, 99, 99, 111, 108, 105] /- broccoli -/,
  [98, 114, 111, 107, 101, 110] /- broken -/,
  [98, 114, 111, 110, 122, 101] /- bronze -/,
  [98, 114, 111, 111, 109] /- broom -/,
  [98, 114, 111, 116, 104, 101, 114] /- brother -/,
  [98, 114, 111, 119, 110] /- brown -/,
  [98, 114, 117, 115, 104] /- brush -/,
  [98, 117, 98, 98, 108, 101] /- bubble -/,
  [98, 117, 100, 100, 121] /- buddy -/,
  [98, 117, 100, 103, 101, 116] /- budget -/,
  [98, 117, 102, 102, 97, 108, 111] /- buffalo -/,
  [98, 117, 105, 108, 100] /- build -/,
  [98, 117, 108, 98] /- bulb -/,
  [98, 117, 108, 107] /- bulk -/,
  [98, 117, 108, 108, 101, 116] /- bullet -/,
  [98, 117, 110, 100, 108, 101] /- bundle -/,
  [98, 117, 110, 107, 101, 114] /- bunker -/,
  [98, 117, 114, 100, 101, 110] /- burden -/,
  [98, 117, 114, 103, 101, 114] /- burger -/,
  [98, 117, 114, 115, 116] /- burst -/,
  [98, 117, 115] /- bus -/,
  [98, 117, 115, 105, 110, 101, 115, 115] /- business -/,
  [98, 117, 115, 121] /- busy -/,
  [98, 117, 116, 116, 101, 114] /- butter -/,
  [98, 117, 121, 101, 114] /- buyer -/,
  [98, 117, 122, 122] /- buzz -/,
  [99, 97, 98, 98, 97, 103, 101] /- cabbage -/,
  [99, 97, 98, 105, 110] /- cabin -/,
  [99, 97, 98, 108, 101] /- cable -/]

/-- aiootp/_constants/datasets.py:628-755, part of `WORD_LIST`, as ASCII codes (generated from that file). -/
def words2 : List Bytes := [
  [99, 97, 99, 116, 117, 115] /- cactus -/,
  [99, 97, 103, 101] /- cage -/,
  [99, 97, 107, 101] /- cake -/,
  [99, 97, 108, 108] /- call -/,
  [99, 97, 108, 109] /- calm -/,
  [99, 97, 109, 101, 114, 97] /- camera -/,
  [99, 97, 109, 112] /- camp -/,
  [99, 97, 110] /- can -/,
  [99, 97, 110, 97, 108] /- canal -/,
  [99, 97, 110, 99, 101, 108] /- cancel -/,
  [99, 97, 110, 100, 121] /- candy -/,
  [99, 97, 110, 110, 111, 110] /- cannon -/,
  [99, 97, 110, 111, 101] /- canoe -/,
  [99, 97, 110, 118, 97, 115] /- canvas -/,
  [99, 97, 110, 121, 111, 110] /- canyon -/,
  [99, 97, 112, 97, 98, 108, 101] /- capable -/,
  [99, 97, 112, 105, 116, 97, 108] /- capital -/,
  [99, 97, 112, 116, 97, 105, 110] /- captain -/,
  [99, 97, 114] /- car -/,
  [99, 97, 114, 98, 111, 110] /- carbon -/,
  [99, 97, 114, 100] /- card -/,
  [99, 97, 114, 103, 111] /- cargo -/,
  [99, 97, 114, 112, 101, 116] /- carpet -/,
  [99, 97, 114, 114, 121] /- carry -/,
  [99, 97, 114, 116] /- cart -/,
  [99, 97, 115, 101] /- case -/,
  [99, 97, 115, 104] /- cash -/,
  [99, 97, 115, 105, 110, 111] /- casino -/,
  [99, 97, 115, 116, 108, 101] /- castle -/,
  [99, 97, 115, 117, 97, 108] /- casual -/,
  [99, 97, 116] /- cat -/,
  [99, 97, 116, 97, 108, 111, 103] /- catalog -/,
  [99, 97, 116, 99, 104] /- catch -/,
  [99, 97, 116, 101, 103, 111, 114, 121] /- category -/,
  [99, 97, 116, 116, 108, 101] /- cattle -/,
  [99, 97, 117, 103, 104, 116] /- caught -/,
  [99, 97, 117, 115, 101] /- cause -/,
  [99, 97, 117, 116, 105, 111, 110] /- caution -/,
  [99, 97, 118, 101] /- cave -/,
  [99, 101, 105, 108, 105, 110, 103] /- ceiling -/,
  [99, 101, 108, 101, 114, 121] /- celery -/,
  [99, 101, 109, 101, 110, 116] /- cement -/,
  [99, 101, 110, 115, 117, 115] /- census -/,
  [99, 101, 110, 116, 117, 114, 121] /- century -/,
  [99, 101, 114, 101, 97, 108] /- cereal -/,
  [99, 101, 114, 116, 97, 105, 110] /- certain -/,
  [99, 104, 97, 105, 114] /- chair -/,
  [99, 104, 97, 108, 107] /- chalk -/,
  [99, 104, 97, 109, 112, 105, 111, 110] /- champion -/,
  [99, 104, 97, 110, 103, 101] /- change -/,
  [99, 104, 97, 111, 115] /- chaos -/,
  [99, 104, 97, 112, 116, 101, 114] /- chapter -/,
  [99, 104, 97, 114, 103, 101] /- charge -/,
  [99, 104, 97, 115, 101] /- chase -/,
  [99, 104, 97, 116] /- chat -/,
  [99, 104, 101, 97, 112] /- cheap -/,
  [99, 104, 101, 99, 107] /- check -/,
  [99, 104, 101, 101, 115, 101] /- cheese -/,
  [99, 104, 101, 102] /- chef -/,
  [99, 104, 101, 114, 114, 121] /- cherry -/,
  [99, 104, 101, 115, 116] /- chest -/,
  [99, 104, 105, 99, 107, 101, 110] /- chicken -/,
  [99, 104, 105, 101, 102] /- chief -/,
  [99, 104, 105, 108, 100] /- child -/,
  [99, 104, 105, 109, 110, 101, 121] /- chimney -/,
  [99, 104, 111, 105, 99, 101] /- choice -/,
  [99, 104, 111, 111, 115, 101] /- choose -/,
  [99, 104, 114, 111, 110, 105, 99] /- chronic -/,
  [99, 104, 117, 99, 107, 108, 101] /- chuckle -/,
  [99, 104, 117, 110, 107] /- chunk -/,
  [99, 104, 117, 114, 110] /- churn -/,
  [99, 105, 103, 97, 114] /- cigar -/,
  [99, 105, 110, 110, 97, 109, 111, 110] /- cinnamon -/,
  [99, 105, 114, 99, 108, 101] /- circle -/,
  [99, 105, 116, 105, 122, 101, 110] /- citizen -/,
  [99, 105, 116, 121] /- city -/,
  [99, 105, 118, 105, 108] /- civil -/,
  [99, 108, 97, 105, 109] /- claim -/,
  [99, 108, 97, 112] /- clap -/,
  [99, 108, 97, 114, 105, 102, 121] /- clarify -/,
  [99, 108, 97, 119] /- claw -/,
  [99, 108, 97, 121] /- clay -/,
  [99, 108, 101, 97, 110] /- clean -/,
  [99, 108, 101, 114, 107] /- clerk -/,
  [99, 108, 101, 118, 101, 114] /- clever -/,
  [99, 108, 105, 99, 107] /- click -/,
  [99, 108, 105, 101, 110, 116] /- client -/,
  [99, 108, 105, 102, 102] /- cliff -/,
  [99, 108, 105, 109, 98] /- climb -/,
  [99, 108, 105, 110, 105, 99] /- clinic -/,
  [99, 108, 105, 112] /- clip -/,
  [99, 108, 111, 99, 107] /- clock -/,
  [99, 108, 111, 103] /- clog -/,
  [99, 108, 111, 115, 101] /- close -/,
  [99, 108, 111, 116, 104] /- cloth -/,
  [99, 108, 111, 117, 100] /- cloud -/,
  [99, 108, 111, 119, 110] /- clown -/,
  [99, 108, 117, 98] /- club -/,
  [99, 108, 117, 109, 112] /- clump -/,
  [99, 108, 117, 115, 116, 101, 114] /- cluster -/,
  [99, 108, 117, 116, 99, 104] /- clutch -/,
  [99, 111, 97, 99, 104] /- coach -/,
  [99, 111, 97, 115, 116] /- coast -/,
  [99, 111, 99, 111, 110, 117, 116] /- coconut -/,
  [99, 111, 100, 101] /- code -/,
  [99, 111, 102, 102, 101, 101] /- coffee -/,
  [99, 111, 105, 108] /- coil -/,
  [99, 111, 105, 110] /- coin -/,
  [99, 111, 108, 108, 101, 99, 116] /- collect -/,
  [99, 111, 108, 111, 114] /- color -/,
  [99, 111, 108, 117, 109, 110] /- column -/,
  [99, 111, 109, 98, 105, 110, 101] /- combine -/,
  [99, 111, 109, 101] /- come -/,
  [99, 111, 109, 102, 111, 114, 116] /- comfort -/,
  [99, 111, 109, 105, 99] /- comic -/,
  [99, 111, 109, 109, 111, 110] /- common -/,
  [99, 111, 109, 112, 97, 110, 121] /- company -/,
  [99, 111, 110, 99, 101, 114, 116] /- concert -/,
  [99, 111, 110, 100, 117, 99, 116] /- conduct -/,
  [99, 111, 110, 102, 105, 114, 109] /- confirm -/,
  [99, 111, 110, 103, 114, 101, 115, 115] /- congress -/,
  [99, 111, 110, 110, 101, 99, 116] /- connect -/,
  [99, 111, 110, 115, 105, 100, 101, 114] /- consider -/,
  [99, 111, 110, 116, 114, 111, 108] /- control -/,
  [99, 111, 110, 118, 105, 110, 99, 101] /- convince -/,
  [99, 111, 111, 107] /- cook -/,
  [99, 111, 111, 108] /- cool -/,
  [99, 111, 112, 112, 101, 114] /- copper -/]

/-- aiootp/_constants/datasets.py:756-883, part of `WORD_LIST`, as ASCII codes (generated from that file). -/
def words3 : List Bytes := [
  [99, 111, 112, 121] /- copy -/,
  [99, 111, 114, 97, 108] /- coral -/,
  [99, 111, 114, 101] /- core -/,
  [99, 111, 114, 110] /- corn -/,
  [99, 111, 114, 114, 101, 99, 116] /- correct -/,
  [99, 111, 115, 116] /- cost -/,
  [99, 111, 116, 116, 111, 110] /- cotton -/,
  [99, 111, 117, 99, 104] /- couch -/,
  [99, 111, 117, 110, 116, 114, 121] /- country -/,
  [99, 111, 117, 112, 108, 101] /- couple -/,
  [99, 111, 117, 114, 115, 101] /- course -/,
  [99, 111, 117, 115, 105, 110] /- cousin -/,
  [99, 111, 118, 101, 114] /- cover -/,
  [99, 111, 121, 111, 116, 101] /- coyote -/,
  [99, 114, 97, 99, 107] /- crack -/,
  [99, 114, 97, 100, 108, 101] /- cradle -/,
  [99, 114, 97, 102, 116] /- craft -/,
  [99, 114, 97, 109] /- cram -/,
  [99, 114, 97, 110, 101] /- crane -/,
  [99, 114, 97, 115, 104] /- crash -/,
  [99, 114, 97, 116, 101, 114] /- crater -/,
  [99, 114, 97, 119, 108] /- crawl -/,
  [99, 114, 97, 122, 121] /- crazy -/,
  [99, 114, 101, 97, 109] /- cream -/,
  [99, 114, 101, 100, 105, 116] /- credit -/,
  [99, 114, 101, 101, 107] /- creek -/,
  [99, 114, 101, 119] /- crew -/,
  [99, 114, 105, 99, 107, 101, 116] /- cricket -/,
  [99, 114, 105, 109, 101] /- crime -/,
  [99, 114, 105, 115, 112] /- crisp -/,
  [99, 114, 105, 116, 105, 99] /- critic -/,
  [99, 114, 111, 112] /- crop -/,
  [99, 114, 111, 115, 115] /- cross -/,
  [99, 114, 111, 117, 99, 104] /- crouch -/,
  [99, 114, 111, 119, 100] /- crowd -/,
  [99, 114, 117, 99, 105, 97, 108] /- crucial -/,
  [99, 114, 117, 101, 108] /- cruel -/,
  [99, 114, 117, 105, 115, 101] /- cruise -/,
  [99, 114, 117, 109, 98, 108, 101] /- crumble -/,
  [99, 114, 117, 110, 99, 104] /- crunch -/,
  [99, 114, 117, 115, 104] /- crush -/,
  [99, 114, 121] /- cry -/,
  [99, 114, 121, 115, 116, 97, 108] /- crystal -/,
  [99, 117, 98, 101] /- cube -/,
  [99, 117, 108, 116, 117, 114, 101] /- culture -/,
  [99, 117, 112] /- cup -/,
  [99, 117, 112, 98, 111, 97, 114, 100] /- cupboard -/,
  [99, 117, 114, 105, 111, 117, 115] /- curious -/,
  [99, 117, 114, 114, 101, 110, 116] /- current -/,
  [99, 117, 114, 116, 97, 105, 110] /- curtain -/,
  [99, 117, 114, 118, 101] /- curve -/,
  [99, 117, 115, 104, 105, 111, 110] /- cushion -/,
  [99, 117, 115, 116, 111, 109] /- custom -/,
  [99, 117, 116, 101] /- cute -/,
  [99, 121, 99, 108, 101] /- cycle -/,
  [100, 97, 100] /- dad -/,
  [100, 97, 109, 97, 103, 101] /- damage -/,
  [100, 97, 109, 112] /- damp -/,
  [100, 97, 110, 99, 101] /- dance -/,
  [100, 97, 110, 103, 101, 114] /- danger -/,
  [100, 97, 114, 105, 110, 103] /- daring -/,
  [100, 97, 115, 104] /- dash -/,
  [100, 97, 117, 103, 104, 116, 101, 114] /- daughter -/,
  [100, 97, 119, 110] /- dawn -/,
  [100, 97, 121] /- day -/,
  [100, 101, 97, 108] /- deal -/,
  [100, 101, 98, 97, 116, 101] /- debate -/,
  [100, 101, 98, 114, 105, 115] /- debris -/,
  [100, 101, 99, 97, 100, 101] /- decade -/,
  [100, 101, 99, 101, 109, 98, 101, 114] /- december -/,
  [100, 101, 99, 105, 100, 101] /- decide -/,
  [100, 101, 99, 108, 105, 110, 101] /- decline -/,
  [100, 101, 99, 111, 114, 97, 116, 101] /- decorate -/,
  [100, 101, 99, 114, 101, 97, 115, 101] /- decrease -/,
  [100, 101, 101, 114] /- deer -/,
  [100, 101, 102, 101, 110, 115, 101] /- defense -/,
  [100, 101, 102, 105, 110, 101] /- define -/,
  [100, 101, 102, 121] /- defy -/,
  [100, 101, 103, 114, 101, 101] /- degree -/,
  [100, 101, 108, 97, 121] /- delay -/,
  [100, 101, 108, 105, 118, 101, 114] /- deliver -/,
  [100, 101, 109, 97, 110, 100] /- demand -/,
  [100, 101, 109, 105, 115, 101] /- demise -/,
  [100, 101, 110, 105, 97, 108] /- denial -/,
  [100, 101, 110, 116, 105, 115, 116] /- dentist -/,
  [100, 101, 110, 121] /- deny -/,
  [100, 101, 112, 97, 114, 116] /- depart -/,
  [100, 101, 112, 101, 110, 100] /- depend -/,
  [100, 101, 112, 111, 115, 105, 116] /- deposit -/,
  [100, 101, 112, 116, 104] /- depth -/,
  [100, 101, 112, 117, 116, 121] /- deputy -/,
  [100, 101, 114, 105, 118, 101] /- derive -/,
  [100, 101, 115, 99, 114, 105, 98, 101] /- describe -/,
  [100, 101, 115, 101, 114, 116] /- desert -/,
  [100, 101, 115, 105, 103, 110] /- design -/,
  [100, 101, 115, 107] /- desk -/,
  [100, 101, 115, 112, 97, 105, 114] /- despair -/,
  [100, 101, 115, 116, 114, 111, 121] /- destroy -/,
  [100, 101, 116, 97, 105, 108] /- detail -/,
  [100, 101, 116, 101, 99, 116] /- detect -/,
  [100, 101, 118, 101, 108, 111, 112] /- develop -/,
  [100, 101, 118, 105, 99, 101] /- device -/,
  [100, 101, 118, 111, 116, 101] /- devote -/,
  [100, 105, 97, 103, 114, 97, 109] /- diagram -/,
  [100, 105, 97, 108] /- dial -/,
  [100, 105, 97, 109, 111, 110, 100] /- diamond -/,
  [100, 105, 97, 114, 121] /- diary -/,
  [100, 105, 99, 101] /- dice -/,
  [100, 105, 101, 115, 101, 108] /- diesel -/,
  [100, 105, 101, 116] /- diet -/,
  [100, 105, 102, 102, 101, 114] /- differ -/,
  [100, 105, 103, 105, 116, 97, 108] /- digital -/,
  [100, 105, 103, 110, 105, 116, 121] /- dignity -/,
  [100, 105, 108, 101, 109, 109, 97] /- dilemma -/,
  [100, 105, 110, 110, 101, 114] /- dinner -/,
  [100, 105, 110, 111, 115, 97, 117, 114] /- dinosaur -/,
  [100, 105, 114, 101, 99, 116] /- direct -/,
  [100, 105, 114, 116] /- dirt -/,
  [100, 105, 115, 97, 103, 114, 101, 101] /- disagree -/,
  [100, 105, 115, 99, 111, 118, 101, 114] /- discover -/,
  [100, 105, 115, 101, 97, 115, 101] /- disease -/,
  [100, 105, 115, 104] /- dish -/,
  [100, 105, 115, 109, 105, 115, 115] /- dismiss -/,
  [100, 105, 115, 111, 114, 100, 101, 114] /- disorder -/,
  [100, 105, 115, 112, 108, 97, 121] /- display -/,
  [100, 105, 115, 116, 97, 110, 99, 101] /- distance -/,
  [100, 105, 118, 101, 114, 116] /- divert -/,
  [100, 105, 118, 105, 100, 101] /- divide -/]

/-- aiootp/_constants/datasets.py:884-1011, part of `WORD_LIST`, as ASCII codes (generated from that file). -/
def words4 : List Bytes := [
  [100, 105, 118, 111, 114, 99, 101] /- divorce -/,
  [100, 105, 122, 122, 121] /- dizzy -/,
  [100, 111, 99, 116, 111, 114] /- doctor -/,
  [100, 111, 99, 117, 109, 101, 110, 116] /- document -/,
  [100, 111, 103] /- dog -/,
  [100, 111, 108, 108] /- doll -/,
  [100, 111, 108, 112, 104, 105, 110] /- dolphin -/,
  [100, 111, 109, 97, 105, 110] /- domain -/,
  [100, 111, 110, 97, 116, 101] /- donate -/,
  [100, 111, 110, 107, 101, 121] /- donkey -/,
  [100, 111, 110, 111, 114] /- donor -/,
  [100, 111, 111, 114] /- door -/,
  [100, 111, 115, 101] /- dose -/,
  [100, 111, 117, 98, 108, 101] /- double -/,
  [100, 111, 118, 101] /- dove -/,
  [100, 114, 97, 102, 116] /- draft -/,
  [100, 114, 97, 103, 111, 110] /- dragon -/,
  [100, 114, 97, 109, 97] /- drama -/,
  [100, 114, 97, 115, 116, 105, 99] /- drastic -/,
  [100, 114, 97, 119] /- draw -/,
  [100, 114, 101, 97, 109] /- dream -/,
  [100, 114, 101, 115, 115] /- dress -/,
  [100, 114, 105, 102, 116] /- drift -/,
  [100, 114, 105, 108, 108] /- drill -/,
  [100, 114, 105, 110, 107] /- drink -/,
  [100, 114, 105, 112] /- drip -/,
  [100, 114, 105, 118, 101] /- drive -/,
  [100, 114, 111, 112] /- drop -/,
  [100, 114, 117, 109] /- drum -/,
  [100, 114, 121] /- dry -/,
  [100, 117, 99, 107] /- duck -/,
  [100, 117, 109, 98] /- dumb -/,
  [100, 117, 110, 101] /- dune -/,
  [100, 117, 114, 105, 110, 103] /- during -/,
  [100, 117, 115, 116] /- dust -/,
  [100, 117, 116, 99, 104] /- dutch -/,
  [100, 117, 116, 121] /- duty -/,
  [100, 119, 97, 114, 102] /- dwarf -/,
  [100, 121, 110, 97, 109, 105, 99] /- dynamic -/,
  [101, 97, 103, 101, 114] /- eager -/,
  [101, 97, 103, 108, 101] /- eagle -/,
  [101, 97, 114, 108, 121] /- early -/,
  [101, 97, 114, 110] /- earn -/,
  [101, 97, 114, 116, 104] /- earth -/,
  [101, 97, 115, 105, 108, 121] /- easily -/,
  [101, 97, 115, 116] /- east -/,
  [101, 97, 115, 121] /- easy -/,
  [101, 99, 104, 111] /- echo -/,
  [101, 99, 111, 108, 111, 103, 121] /- ecology -/,
  [101, 99, 111, 110, 111, 109, 121] /- economy -/,
  [101, 100, 103, 101] /- edge -/,
  [101, 100, 105, 116] /- edit -/,
  [101, 100, 117, 99, 97, 116, 101] /- educate -/,
  [101, 102, 102, 111, 114, 116] /- effort -/,
  [101, 103, 103] /- egg -/,
  [101, 105, 103, 104, 116] /- eight -/,
  [101, 105, 116, 104, 101, 114] /- either -/,
  [101, 108, 98, 111, 119] /- elbow -/,
  [101, 108, 100, 101, 114] /- elder -/,
  [101, 108, 101, 99, 116, 114, 105, 99] /- electric -/,
  [101, 108, 101, 103, 97, 110, 116] /- elegant -/,
  [101, 108, 101, 109, 101, 110, 116] /- element -/,
  [101, 108, 101, 112, 104, 97, 110, 116] /- elephant -/,
  [101, 108, 101, 118, 97, 116, 111, 114] /- elevator -/,
  [101, 108, 105, 116, 101] /- elite -/,
  [101, 108, 115, 101] /- else -/,
  [101, 109, 98, 97, 114, 107] /- embark -/,
  [101, 109, 98, 111, 100, 121] /- embody -/,
  [101, 109, 98, 114, 97, 99, 101] /- embrace -/,
  [101, 109, 101, 114, 103, 101] /- emerge -/,
  [101, 109, 111, 116, 105, 111, 110] /- emotion -/,
  [101, 109, 112, 108, 111, 121] /- employ -/,
  [101, 109, 112, 111, 119, 101, 114] /- empower -/,
  [101, 109, 112, 116, 121] /- empty -/,
  [101, 110, 97, 98, 108, 101] /- enable -/,
  [101, 110, 97, 99, 116] /- enact -/,
  [101, 110, 100] /- end -/,
  [101, 110, 100, 108, 101, 115, 115] /- endless -/,
  [101, 110, 100, 111, 114, 115, 101] /- endorse -/,
  [101, 110, 101, 109, 121] /- enemy -/,
  [101, 110, 101, 114, 103, 121] /- energy -/,
  [101, 110, 102, 111, 114, 99, 101] /- enforce -/,
  [101, 110, 103, 97, 103, 101] /- engage -/,
  [101, 110, 103, 105, 110, 101] /- engine -/,
  [101, 110, 104, 97, 110, 99, 101] /- enhance -/,
  [101, 110, 106, 111, 121] /- enjoy -/,
  [101, 110, 108, 105, 115, 116] /- enlist -/,
  [101, 110, 111, 117, 103, 104] /- enough -/,
  [101, 110, 114, 105, 99, 104] /- enrich -/,
  [101, 110, 114, 111, 108, 108] /- enroll -/,
  [101, 110, 115, 117, 114, 101] /- ensure -/,
  [101, 110, 116, 101, 114] /- enter -/,
  [101, 110, 116, 105, 114, 101] /- entire -/,
  [101, 110, 116, 114, 121] /- entry -/,
  [101, 110, 118, 101, 108, 111, 112, 101] /- envelope -/,
  [101, 112, 105, 115, 111, 100, 101] /- episode -/,
  [101, 113, 117, 97, 108] /- equal -/,
  [101, 113, 117, 105, 112] /- equip -/,
  [101, 114, 97] /- era -/,
  [101, 114, 97, 115, 101] /- erase -/,
  [101, 114, 111, 100, 101] /- erode -/,
  [101, 114, 111, 115, 105, 111, 110] /- erosion -/,
  [101, 114, 114, 111, 114] /- error -/,
  [101, 114, 117, 112, 116] /- erupt -/,
  [101, 115, 99, 97, 112, 101] /- escape -/,
  [101, 115, 115, 97, 121] /- essay -/,
  [101, 115, 115, 101, 110, 99, 101] /- essence -/,
  [101, 115, 116, 97, 116, 101] /- estate -/,
  [101, 116, 101, 114, 110, 97, 108] /- eternal -/,
  [101, 116, 104, 105, 99, 115] /- ethics -/,
  [101, 118, 105, 100, 101, 110, 99, 101] /- evidence -/,
  [101, 118, 105, 108] /- evil -/,
  [101, 118, 111, 107, 101] /- evoke -/,
  [101, 118, 111, 108, 118, 101] /- evolve -/,
  [101, 120, 97, 99, 116] /- exact -/,
  [101, 120, 97, 109, 112, 108, 101] /- example -/,
  [101, 120, 99, 101, 115, 115] /- excess -/,
  [101, 120, 99, 104, 97, 110, 103, 101] /- exchange -/,
  [101, 120, 99, 105, 116, 101] /- excite -/,
  [101, 120, 99, 108, 117, 100, 101] /- exclude -/,
  [101, 120, 99, 117, 115, 101] /- excuse -/,
  [101, 120, 101, 99, 117, 116, 101] /- execute -/,
  [101, 120, 101, 114, 99, 105, 115, 101] /- exercise -/,
  [101, 120, 104, 97, 117, 115, 116] /- exhaust -/,
  [101, 120, 104, 105, 98, 105, 116] /- exhibit -/,
  [101, 120, 105, 108, 101] /- exile -/,
  [101, 120, 105, 115, 116] /- exist -/,
  [101, 120, 105, 116] /- exit -/]

/-- aiootp/_constants/datasets.py:1012-1139, part of `WORD_LIST`, as ASCII codes (generated from that file). -/
def words5 : List Bytes := [
  [101, 120, 111, 116, 105, 99] /- exotic -/,
  [101, 120, 112, 97, 110, 100] /- expand -/,
  [101, 120, 112, 101, 99, 116] /- expect -/,
  [101, 120, 112, 105, 114, 101] /- expire -/,
  [101, 120, 112, 108, 97, 105, 110] /- explain -/,
  [101, 120, 112, 111, 115, 101] /- expose -/,
  [101, 120, 112, 114, 101, 115, 115] /- express -/,
  [101, 120, 116, 101, 110, 100] /- extend -/,
  [101, 120, 116, 114, 97] /- extra -/,
  [101, 121, 101] /- eye -/,
  [101, 121, 101, 98, 114, 111, 119] /- eyebrow -/,
  [102, 97, 98, 114, 105, 99] /- fabric -/,
  [102, 97, 99, 101] /- face -/,
  [102, 97, 99, 117, 108, 116, 121] /- faculty -/,
  [102, 97, 100, 101] /- fade -/,
  [102, 97, 105, 110, 116] /- faint -/,
  [102, 97, 105, 116, 104] /- faith -/,
  [102, 97, 108, 108] /- fall -/,
  [102, 97, 108, 115, 101] /- false -/,
  [102, 97, 109, 101] /- fame -/,
  [102, 97, 109, 105, 108, 121] /- family -/,
  [102, 97, 109, 111, 117, 115] /- famous -/,
  [102, 97, 110] /- fan -/,
  [102, 97, 110, 99, 121] /- fancy -/,
  [102, 97, 110, 116, 97, 115, 121] /- fantasy -/,
  [102, 97, 114, 109] /- farm -/,
  [102, 97, 115, 104, 105, 111, 110] /- fashion -/,
  [102, 97, 116] /- fat -/,
  [102, 97, 116, 97, 108] /- fatal -/,
  [102, 97, 116, 104, 101, 114] /- father -/,
  [102, 97, 116, 105, 103, 117, 101] /- fatigue -/,
  [102, 97, 117, 108, 116] /- fault -/,
  [102, 97, 118, 111, 114, 105, 116, 101] /- favorite -/,
  [102, 101, 97, 116, 117, 114, 101] /- feature -/,
  [102, 101, 98, 114, 117, 97, 114, 121] /- february -/,
  [102, 101, 100, 101, 114, 97, 108] /- federal -/,
  [102, 101, 101] /- fee -/,
  [102, 101, 101, 100] /- feed -/,
  [102, 101, 101, 108] /- feel -/,
  [102, 101, 109, 97, 108, 101] /- female -/,
  [102, 101, 110, 99, 101] /- fence -/,
  [102, 101, 115, 116, 105, 118, 97, 108] /- festival -/,
  [102, 101, 116, 99, 104] /- fetch -/,
  [102, 101, 118, 101, 114] /- fever -/,
  [102, 101, 119] /- few -/,
  [102, 105, 98, 101, 114] /- fiber -/,
  [102, 105, 99, 116, 105, 111, 110] /- fiction -/,
  [102, 105, 101, 108, 100] /- field -/,
  [102, 105, 103, 117, 114, 101] /- figure -/,
  [102, 105, 108, 101] /- file -/,
  [102, 105, 108, 109] /- film -/,
  [102, 105, 108, 116, 101, 114] /- filter -/,
  [102, 105, 110, 97, 108] /- final -/,
  [102, 105, 110, 100] /- find -/,
  [102, 105, 110, 101] /- fine -/,
  [102, 105, 110, 103, 101, 114] /- finger -/,
  [102, 105, 110, 105, 115, 104] /- finish -/,
  [102, 105, 114, 101] /- fire -/,
  [102, 105, 114, 109] /- firm -/,
  [102, 105, 114, 115, 116] /- first -/,
  [102, 105, 115, 99, 97, 108] /- fiscal -/,
  [102, 105, 115, 104] /- fish -/,
  [102, 105, 116] /- fit -/,
  [102, 105, 116, 110, 101, 115, 115] /- fitness -/,
  [102, 105, 120] /- fix -/,
  [102, 108, 97, 103] /- flag -/,
  [102, 108, 97, 109, 101] /- flame -/,
  [102, 108, 97, 115, 104] /- flash -/,
  [102, 108, 97, 116] /- flat -/,
  [102, 108, 97, 118, 111, 114] /- flavor -/,
  [102, 108, 101, 101] /- flee -/,
  [102, 108, 105, 103, 104, 116] /- flight -/,
  [102, 108, 105, 112] /- flip -/,
  [102, 108, 111, 97, 116] /- float -/,
  [102, 108, 111, 99, 107] /- flock -/,
  [102, 108, 111, 111, 114] /- floor -/,
  [102, 108, 111, 119, 101, 114] /- flower -/,
  [102, 108, 117, 105, 100] /- fluid -/,
  [102, 108, 117, 115, 104] /- flush -/,
  [102, 108, 121] /- fly -/,
  [102, 111, 97, 109] /- foam -/,
  [102, 111, 99, 117, 115] /- focus -/,
  [102, 111, 103] /- fog -/,
  [102, 111, 105, 108] /- foil -/,
  [102, 111, 108, 100] /- fold -/,
  [102, 111, 108, 108, 111, 119] /- follow -/,
  [102, 111, 111, 100] /- food -/,
  [102, 111, 111, 116] /- foot -/,
  [102, 111, 114, 99, 101] /- force -/,
  [102, 111, 114, 101, 115, 116] /- forest -/,
  [102, 111, 114, 103, 101, 116] /- forget -/,
  [102, 111, 114, 107] /- fork -/,
  [102, 111, 114, 116, 117, 110, 101] /- fortune -/,
  [102, 111, 114, 117, 109] /- forum -/,
  [102, 111, 114, 119, 97, 114, 100] /- forward -/,
  [102, 111, 115, 115, 105, 108] /- fossil -/,
  [102, 111, 115, 116, 101, 114] /- foster -/,
  [102, 111, 117, 110, 100] /- found -/,
  [102, 111, 120] /- fox -/,
  [102, 114, 97, 103, 105, 108, 101] /- fragile -/,
  [102, 114, 97, 109, 101] /- frame -/,
  [102, 114, 101, 113, 117, 101, 110, 116] /- frequent -/,
  [102, 114, 101, 115, 104] /- fresh -/,
  [102, 114, 105, 101, 110, 100] /- friend -/,
  [102, 114, 105, 110, 103, 101] /- fringe -/,
  [102, 114, 111, 103] /- frog -/,
  [102, 114, 111, 110, 116] /- front -/,
  [102, 114, 111, 115, 116] /- frost -/,
  [102, 114, 111, 119, 110] /- frown -/,
  [102, 114, 111, 122, 101, 110] /- frozen -/,
  [102, 114, 117, 105, 116] /- fruit -/,
  [102, 117, 101, 108] /- fuel -/,
  [102, 117, 110] /- fun -/,
  [102, 117, 110, 110, 121] /- funny -/,
  [102, 117, 114, 110, 97, 99, 101] /- furnace -/,
  [102, 117, 114, 121] /- fury -/,
  [102, 117, 116, 117, 114, 101] /- future -/,
  [103, 97, 100, 103, 101, 116] /- gadget -/,
  [103, 97, 105, 110] /- gain -/,
  [103, 97, 108, 97, 120, 121] /- galaxy -/,
  [103, 97, 108, 108, 101, 114, 121] /- gallery -/,
  [103, 97, 109, 101] /- game -/,
  [103, 97, 112] /- gap -/,
  [103, 97, 114, 97, 103, 101] /- garage -/,
  [103, 97, 114, 98, 97, 103, 101] /- garbage -/,
  [103, 97, 114, 100, 101, 110] /- garden -/,
  [103, 97, 114, 108, 105, 99] /- garlic -/,
  [103, 97, 114, 109, 101, 110, 116] /- garment -/]

/-- aiootp/_constants/datasets.py:1140-1267, part of `WORD_LIST`, as ASCII codes (generated from that file). -/
def words6 : List Bytes := [
  [103, 97, 115] /- gas -/,
  [103, 97, 115, 112] /- gasp -/,
  [103, 97, 116, 101] /- gate -/,
  [103, 97, 116, 104, 101, 114] /- gather -/,
  [103, 97, 117, 103, 101] /- gauge -/,
  [103, 97, 122, 101] /- gaze -/,
  [103, 101, 110, 101, 114, 97, 108] /- general -/,
  [103, 101, 110, 105, 117, 115] /- genius -/,
  [103, 101, 110, 114, 101] /- genre -/,
  [103, 101, 110, 116, 108, 101] /- gentle -/,
  [103, 101, 110, 117, 105, 110, 101] /- genuine -/,
  [103, 101, 115, 116, 117, 114, 101] /- gesture -/,
  [103, 104, 111, 115, 116] /- ghost -/,
  [103, 105, 97, 110, 116] /- giant -/,
  [103, 105, 102, 116] /- gift -/,
  [103, 105, 103, 103, 108, 101] /- giggle -/,
  [103, 105, 110, 103, 101, 114] /- ginger -/,
  [103, 105, 114, 97, 102, 102, 101] /- giraffe -/,
  [103, 105, 114, 108] /- girl -/,
  [103, 105, 118, 101] /- give -/,
  [103, 108, 97, 100] /- glad -/,
  [103, 108, 97, 110, 99, 101] /- glance -/,
  [103, 108, 97, 114, 101] /- glare -/,
  [103, 108, 97, 115, 115] /- glass -/,
  [103, 108, 105, 100, 101] /- glide -/,
  [103, 108, 105, 109, 112, 115, 101] /- glimpse -/,
  [103, 108, 111, 98, 101] /- globe -/,
  [103, 108, 111, 111, 109] /- gloom -/,
  [103, 108, 111, 114, 121] /- glory -/,
  [103, 108, 111, 118, 101] /- glove -/,
  [103, 108, 111, 119] /- glow -/,
  [103, 108, 117, 101] /- glue -/,
  [103, 111, 97, 116] /- goat -/,
  [103, 111, 100, 100, 101, 115, 115] /- goddess -/,
  [103, 111, 108, 100] /- gold -/,
  [103, 111, 111, 100] /- good -/,
  [103, 111, 111, 115, 101] /- goose -/,
  [103, 111, 114, 105, 108, 108, 97] /- gorilla -/,
  [103, 111, 115, 112, 101, 108] /- gospel -/,
  [103, 111, 115, 115, 105, 112] /- gossip -/,
  [103, 111, 118, 101, 114, 110] /- govern -/,
  [103, 111, 119, 110] /- gown -/,
  [103, 114, 97, 98] /- grab -/,
  [103, 114, 97, 99, 101] /- grace -/,
  [103, 114, 97, 105, 110] /- grain -/,
  [103, 114, 97, 110, 116] /- grant -/,
  [103, 114, 97, 112, 101] /- grape -/,
  [103, 114, 97, 115, 115] /- grass -/,
  [103, 114, 97, 118, 105, 116, 121] /- gravity -/,
  [103, 114, 101, 97, 116] /- great -/,
  [103, 114, 101, 101, 110] /- green -/,
  [103, 114, 105, 100] /- grid -/,
  [103, 114, 105, 101, 102] /- grief -/,
  [103, 114, 105, 116] /- grit -/,
  [103, 114, 111, 99, 101, 114, 121] /- grocery -/,
  [103, 114, 111, 117, 112] /- group -/,
  [103, 114, 111, 119] /- grow -/,
  [103, 114, 117, 110, 116] /- grunt -/,
  [103, 117, 97, 114, 100] /- guard -/,
  [103, 117, 101, 115, 115] /- guess -/,
  [103, 117, 105, 100, 101] /- guide -/,
  [103, 117, 105, 108, 116] /- guilt -/,
  [103, 117, 105, 116, 97, 114] /- guitar -/,
  [103, 117, 110] /- gun -/,
  [103, 121, 109] /- gym -/,
  [104, 97, 98, 105, 116] /- habit -/,
  [104, 97, 105, 114] /- hair -/,
  [104, 97, 108, 102] /- half -/,
  [104, 97, 109, 109, 101, 114] /- hammer -/,
  [104, 97, 109, 115, 116, 101, 114] /- hamster -/,
  [104, 97, 110, 100] /- hand -/,
  [104, 97, 112, 112, 121] /- happy -/,
  [104, 97, 114, 98, 111, 114] /- harbor -/,
  [104, 97, 114, 100] /- hard -/,
  [104, 97, 114, 115, 104] /- harsh -/,
  [104, 97, 114, 118, 101, 115, 116] /- harvest -/,
  [104, 97, 116] /- hat -/,
  [104, 97, 118, 101] /- have -/,
  [104, 97, 119, 107] /- hawk -/,
  [104, 97, 122, 97, 114, 100] /- hazard -/,
  [104, 101, 97, 100] /- head -/,
  [104, 101, 97, 108, 116, 104] /- health -/,
  [104, 101, 97, 114, 116] /- heart -/,
  [104, 101, 97, 118, 121] /- heavy -/,
  [104, 101, 100, 103, 101, 104, 111, 103] /- hedgehog -/,
  [104, 101, 105, 103, 104, 116] /- height -/,
  [104, 101, 108, 108, 111] /- hello -/,
  [104, 101, 108, 109, 101, 116] /- helmet -/,
  [104, 101, 108, 112] /- help -/,
  [104, 101, 110] /- hen -/,
  [104, 101, 114, 111] /- hero -/,
  [104, 105, 100, 100, 101, 110] /- hidden -/,
  [104, 105, 103, 104] /- high -/,
  [104, 105, 108, 108] /- hill -/,
  [104, 105, 110, 116] /- hint -/,
  [104, 105, 112] /- hip -/,
  [104, 105, 114, 101] /- hire -/,
  [104, 105, 115, 116, 111, 114, 121] /- history -/,
  [104, 111, 98, 98, 121] /- hobby -/,
  [104, 111, 99, 107, 101, 121] /- hockey -/,
  [104, 111, 108, 100] /- hold -/,
  [104, 111, 108, 101] /- hole -/,
  [104, 111, 108, 105, 100, 97, 121] /- holiday -/,
  [104, 111, 108, 108, 111, 119] /- hollow -/,
  [104, 111, 109, 101] /- home -/,
  [104, 111, 110, 101, 121] /- honey -/,
  [104, 111, 111, 100] /- hood -/,
  [104, 111, 112, 101] /- hope -/,
  [104, 111, 114, 110] /- horn -/,
  [104, 111, 114, 114, 111, 114] /- horror -/,
  [104, 111, 114, 115, 101] /- horse -/,
  [104, 111, 115, 112, 105, 116, 97, 108] /- hospital -/,
  [104, 111, 115, 116] /- host -/,
  [104, 111, 116, 101, 108] /- hotel -/,
  [104, 111, 117, 114] /- hour -/,
  [104, 111, 118, 101, 114] /- hover -/,
  [104, 117, 98] /- hub -/,
  [104, 117, 103, 101] /- huge -/,
  [104, 117, 109, 97, 110] /- human -/,
  [104, 117, 109, 98, 108, 101] /- humble -/,
  [104, 117, 109, 111, 114] /- humor -/,
  [104, 117, 110, 100, 114, 101, 100] /- hundred -/,
  [104, 117, 110, 103, 114, 121] /- hungry -/,
  [104, 117, 110, 116] /- hunt -/,
  [104, 117, 114, 100, 108, 101] /- hurdle -/,
  [104, 117, 114, 114, 121] /- hurry -/,
  [104, 117, 114, 116] /- hurt -/,
  [104, 117, 115, 98, 97, 110, 100] /- husband -/]

/-- aiootp/_constants/datasets.py:1268-1395, part of `WORD_LIST`, as ASCII codes (generated from that file). -/
def words7 : List Bytes := [
  [104, 121, 98, 114, 105, 100] /- hybrid -/,
  [105, 99, 101] /- ice -/,
  [105, 99, 111, 110] /- icon -/,
  [105, 100, 101, 97] /- idea -/,
  [105, 100, 101, 110, 116, 105, 102, 121] /- identify -/,
  [105, 100, 108, 101] /- idle -/,
  [105, 103, 110, 111, 114, 101] /- ignore -/,
  [105, 108, 108] /- ill -/,
  [105, 108, 108, 101, 103, 97, 108] /- illegal -/,
  [105, 108, 108, 110, 101, 115, 115] /- illness -/,
  [105, 109, 97, 103, 101] /- image -/,
  [105, 109, 105, 116, 97, 116, 101] /- imitate -/,
  [105, 109, 109, 101, 110, 115, 101] /- immense -/,
  [105, 109, 109, 117, 110, 101] /- immune -/,
  [105, 109, 112, 97, 99, 116] /- impact -/,
  [105, 109, 112, 111, 115, 101] /- impose -/,
  [105, 109, 112, 114, 111, 118, 101] /- improve -/,
  [105, 109, 112, 117, 108, 115, 101] /- impulse -/,
  [105, 110, 99, 104] /- inch -/,
  [105, 110, 99, 108, 117, 100, 101] /- include -/,
  [105, 110, 99, 111, 109, 101] /- income -/,
  [105, 110, 99, 114, 101, 97, 115, 101] /- increase -/,
  [105, 110, 100, 101, 120] /- index -/,
  [105, 110, 100, 105, 99, 97, 116, 101] /- indicate -/,
  [105, 110, 100, 111, 111, 114] /- indoor -/,
  [105, 110, 100, 117, 115, 116, 114, 121] /- industry -/,
  [105, 110, 102, 97, 110, 116] /- infant -/,
  [105, 110, 102, 108, 105, 99, 116] /- inflict -/,
  [105, 110, 102, 111, 114, 109] /- inform -/,
  [105, 110, 104, 97, 108, 101] /- inhale -/,
  [105, 110, 104, 101, 114, 105, 116] /- inherit -/,
  [105, 110, 105, 116, 105, 97, 108] /- initial -/,
  [105, 110, 106, 101, 99, 116] /- inject -/,
  [105, 110, 106, 117, 114, 121] /- injury -/,
  [105, 110, 109, 97, 116, 101] /- inmate -/,
  [105, 110, 110, 101, 114] /- inner -/,
  [105, 110, 110, 111, 99, 101, 110, 116] /- innocent -/,
  [105, 110, 112, 117, 116] /- input -/,
  [105, 110, 113, 117, 105, 114, 121] /- inquiry -/,
  [105, 110, 115, 97, 110, 101] /- insane -/,
  [105, 110, 115, 101, 99, 116] /- insect -/,
  [105, 110, 115, 105, 100, 101] /- inside -/,
  [105, 110, 115, 112, 105, 114, 101] /- inspire -/,
  [105, 110, 115, 116, 97, 108, 108] /- install -/,
  [105, 110, 116, 97, 99, 116] /- intact -/,
  [105, 110, 116, 101, 114, 101, 115, 116] /- interest -/,
  [105, 110, 116, 111] /- into -/,
  [105, 110, 118, 101, 115, 116] /- invest -/,
  [105, 110, 118, 105, 116, 101] /- invite -/,
  [105, 110, 118, 111, 108, 118, 101] /- involve -/,
  [105, 114, 111, 110] /- iron -/,
  [105, 115, 108, 97, 110, 100] /- island -/,
  [105, 115, 111, 108, 97, 116, 101] /- isolate -/,
  [105, 115, 115, 117, 101] /- issue -/,
  [105, 116, 101, 109] /- item -/,
  [105, 118, 111, 114, 121] /- ivory -/,
  [106, 97, 99, 107, 101, 116] /- jacket -/,
  [106, 97, 103, 117, 97, 114] /- jaguar -/,
  [106, 97, 114] /- jar -/,
  [106, 97, 122, 122] /- jazz -/,
  [106, 101, 97, 108, 111, 117, 115] /- jealous -/,
  [106, 101, 97, 110, 115] /- jeans -/,
  [106, 101, 108, 108, 121] /- jelly -/,
  [106, 101, 119, 101, 108] /- jewel -/,
  [106, 111, 98] /- job -/,
  [106, 111, 105, 110] /- join -/,
  [106, 111, 107, 101] /- joke -/,
  [106, 111, 117, 114, 110, 101, 121] /- journey -/,
  [106, 111, 121] /- joy -/,
  [106, 117, 100, 103, 101] /- judge -/,
  [106, 117, 105, 99, 101] /- juice -/,
  [106, 117, 109, 112] /- jump -/,
  [106, 117, 110, 103, 108, 101] /- jungle -/,
  [106, 117, 110, 105, 111, 114] /- junior -/,
  [106, 117, 110, 107] /- junk -/,
  [106, 117, 115, 116] /- just -/,
  [107, 97, 110, 103, 97, 114, 111, 111] /- kangaroo -/,
  [107, 101, 101, 110] /- keen -/,
  [107, 101, 101, 112] /- keep -/,
  [107, 101, 116, 99, 104, 117, 112] /- ketchup -/,
  [107, 101, 121] /- key -/,
  [107, 105, 99, 107] /- kick -/,
  [107, 105, 100] /- kid -/,
  [107, 105, 100, 110, 101, 121] /- kidney -/,
  [107, 105, 110, 100] /- kind -/,
  [107, 105, 110, 103, 100, 111, 109] /- kingdom -/,
  [107, 105, 115, 115] /- kiss -/,
  [107, 105, 116] /- kit -/,
  [107, 105, 116, 99, 104, 101, 110] /- kitchen -/,
  [107, 105, 116, 101] /- kite -/,
  [107, 105, 116, 116, 101, 110] /- kitten -/,
  [107, 105, 119, 105] /- kiwi -/,
  [107, 110, 101, 101] /- knee -/,
  [107, 110, 105, 102, 101] /- knife -/,
  [107, 110, 111, 99, 107] /- knock -/,
  [107, 110, 111, 119] /- know -/,
  [108, 97, 98] /- lab -/,
  [108, 97, 98, 101, 108] /- label -/,
  [108, 97, 98, 111, 114] /- labor -/,
  [108, 97, 100, 100, 101, 114] /- ladder -/,
  [108, 97, 100, 121] /- lady -/,
  [108, 97, 107, 101] /- lake -/,
  [108, 97, 109, 112] /- lamp -/,
  [108, 97, 110, 103, 117, 97, 103, 101] /- language -/,
  [108, 97, 112, 116, 111, 112] /- laptop -/,
  [108, 97, 114, 103, 101] /- large -/,
  [108, 97, 116, 101, 114] /- later -/,
  [108, 97, 116, 105, 110] /- latin -/,
  [108, 97, 117, 103, 104] /- laugh -/,
  [108, 97, 117, 110, 100, 114, 121] /- laundry -/,
  [108, 97, 118, 97] /- lava -/,
  [108, 97, 119] /- law -/,
  [108, 97, 119, 110] /- lawn -/,
  [108, 97, 119, 115, 117, 105, 116] /- lawsuit -/,
  [108, 97, 121, 101, 114] /- layer -/,
  [108, 97, 122, 121] /- lazy -/,
  [108, 101, 97, 100, 101, 114] /- leader -/,
  [108, 101, 97, 102] /- leaf -/,
  [108, 101, 97, 114, 110] /- learn -/,
  [108, 101, 97, 118, 101] /- leave -/,
  [108, 101, 99, 116, 117, 114, 101] /- lecture -/,
  [108, 101, 102, 116] /- left -/,
  [108, 101, 103] /- leg -/,
  [108, 101, 103, 97, 108] /- legal -/,
  [108, 101, 103, 101, 110, 100] /- legend -/,
  [108, 101, 105, 115, 117, 114, 101] /- leisure -/,
  [108, 101, 109, 111, 110] /- lemon -/,
  [108, 101, 110, 100] /- lend -/]

/-- aiootp/_constants/datasets.py:1396-1523, part of `WORD_LIST`, as ASCII codes (generated from that file). -/
def words8 : List Bytes := [
  [108, 101, 110, 103, 116, 104] /- length -/,
  [108, 101, 110, 115] /- lens -/,
  [108, 101, 111, 112, 97, 114, 100] /- leopard -/,
  [108, 101, 115, 115, 111, 110] /- lesson -/,
  [108, 101, 116, 116, 101, 114] /- letter -/,
  [108, 101, 118, 101, 108] /- level -/,
  [108, 105, 97, 114] /- liar -/,
  [108, 105, 98, 101, 114, 116, 121] /- liberty -/,
  [108, 105, 98, 114, 97, 114, 121] /- library -/,
  [108, 105, 99, 101, 110, 115, 101] /- license -/,
  [108, 105, 102, 101] /- life -/,
  [108, 105, 102, 116] /- lift -/,
  [108, 105, 103, 104, 116] /- light -/,
  [108, 105, 107, 101] /- like -/,
  [108, 105, 109, 98] /- limb -/,
  [108, 105, 109, 105, 116] /- limit -/,
  [108, 105, 110, 107] /- link -/,
  [108, 105, 111, 110] /- lion -/,
  [108, 105, 113, 117, 105, 100] /- liquid -/,
  [108, 105, 115, 116] /- list -/,
  [108, 105, 116, 116, 108, 101] /- little -/,
  [108, 105, 118, 101] /- live -/,
  [108, 105, 122, 97, 114, 100] /- lizard -/,
  [108, 111, 97, 100] /- load -/,
  [108, 111, 97, 110] /- loan -/,
  [108, 111, 98, 115, 116, 101, 114] /- lobster -/,
  [108, 111, 99, 97, 108] /- local -/,
  [108, 111, 99, 107] /- lock -/,
  [108, 111, 103, 105, 99] /- logic -/,
  [108, 111, 110, 101, 108, 121] /- lonely -/,
  [108, 111, 110, 103] /- long -/,
  [108, 111, 111, 112] /- loop -/,
  [108, 111, 116, 116, 101, 114, 121] /- lottery -/,
  [108, 111, 117, 100] /- loud -/,
  [108, 111, 117, 110, 103, 101] /- lounge -/,
  [108, 111, 118, 101] /- love -/,
  [108, 111, 121, 97, 108] /- loyal -/,
  [108, 117, 99, 107, 121] /- lucky -/,
  [108, 117, 103, 103, 97, 103, 101] /- luggage -/,
  [108, 117, 109, 98, 101, 114] /- lumber -/,
  [108, 117, 110, 97, 114] /- lunar -/,
  [108, 117, 110, 99, 104] /- lunch -/,
  [108, 117, 120, 117, 114, 121] /- luxury -/,
  [108, 121, 114, 105, 99, 115] /- lyrics -/,
  [109, 97, 99, 104, 105, 110, 101] /- machine -/,
  [109, 97, 100] /- mad -/,
  [109, 97, 103, 105, 99] /- magic -/,
  [109, 97, 103, 110, 101, 116] /- magnet -/,
  [109, 97, 105, 100] /- maid -/,
  [109, 97, 105, 108] /- mail -/,
  [109, 97, 105, 110] /- main -/,
  [109, 97, 106, 111, 114] /- major -/,
  [109, 97, 107, 101] /- make -/,
  [109, 97, 109, 109, 97, 108] /- mammal -/,
  [109, 97, 110] /- man -/,
  [109, 97, 110, 97, 103, 101] /- manage -/,
  [109, 97, 110, 100, 97, 116, 101] /- mandate -/,
  [109, 97, 110, 103, 111] /- mango -/,
  [109, 97, 110, 115, 105, 111, 110] /- mansion -/,
  [109, 97, 110, 117, 97, 108] /- manual -/,
  [109, 97, 112, 108, 101] /- maple -/,
  [109, 97, 114, 98, 108, 101] /- marble -/,
  [109, 97, 114, 99, 104] /- march -/,
  [109, 97, 114, 103, 105, 110] /- margin -/,
  [109, 97, 114, 105, 110, 101] /- marine -/,
  [109, 97, 114, 107, 101, 116] /- market -/,
  [109, 97, 114, 114, 105, 97, 103, 101] /- marriage -/,
  [109, 97, 115, 107] /- mask -/,
  [109, 97, 115, 115] /- mass -/,
  [109, 97, 115, 116, 101, 114] /- master -/,
  [109, 97, 116, 99, 104] /- match -/,
  [109, 97, 116, 101, 114, 105, 97, 108] /- material -/,
  [109, 97, 116, 104] /- math -/,
  [109, 97, 116, 114, 105, 120] /- matrix -/,
  [109, 97, 116, 116, 101, 114] /- matter -/,
  [109, 97, 120, 105, 109, 117, 109] /- maximum -/,
  [109, 97, 122, 101] /- maze -/,
  [109, 101, 97, 100, 111, 119] /- meadow -/,
  [109, 101, 97, 110] /- mean -/,
  [109, 101, 97, 115, 117, 114, 101] /- measure -/,
  [109, 101, 97, 116] /- meat -/,
  [109, 101, 99, 104, 97, 110, 105, 99] /- mechanic -/,
  [109, 101, 100, 97, 108] /- medal -/,
  [109, 101, 100, 105, 97] /- media -/,
  [109, 101, 108, 111, 100, 121] /- melody -/,
  [109, 101, 108, 116] /- melt -/,
  [109, 101, 109, 98, 101, 114] /- member -/,
  [109, 101, 109, 111, 114, 121] /- memory -/,
  [109, 101, 110, 116, 105, 111, 110] /- mention -/,
  [109, 101, 110, 117] /- menu -/,
  [109, 101, 114, 99, 121] /- mercy -/,
  [109, 101, 114, 103, 101] /- merge -/,
  [109, 101, 114, 105, 116] /- merit -/,
  [109, 101, 114, 114, 121] /- merry -/,
  [109, 101, 115, 104] /- mesh -/,
  [109, 101, 115, 115, 97, 103, 101] /- message -/,
  [109, 101, 116, 97, 108] /- metal -/,
  [109, 101, 116, 104, 111, 100] /- method -/,
  [109, 105, 100, 100, 108, 101] /- middle -/,
  [109, 105, 100, 110, 105, 103, 104, 116] /- midnight -/,
  [109, 105, 108, 107] /- milk -/,
  [109, 105, 108, 108, 105, 111, 110] /- million -/,
  [109, 105, 109, 105, 99] /- mimic -/,
  [109, 105, 110, 100] /- mind -/,
  [109, 105, 110, 105, 109, 117, 109] /- minimum -/,
  [109, 105, 110, 111, 114] /- minor -/,
  [109, 105, 110, 117, 116, 101] /- minute -/,
  [109, 105, 114, 97, 99, 108, 101] /- miracle -/,
  [109, 105, 114, 114, 111, 114] /- mirror -/,
  [109, 105, 115, 101, 114, 121] /- misery -/,
  [109, 105, 115, 115] /- miss -/,
  [109, 105, 115, 116, 97, 107, 101] /- mistake -/,
  [109, 105, 120] /- mix -/,
  [109, 105, 120, 101, 100] /- mixed -/,
  [109, 105, 120, 116, 117, 114, 101] /- mixture -/,
  [109, 111, 98, 105, 108, 101] /- mobile -/,
  [109, 111, 100, 101, 108] /- model -/,
  [109, 111, 100, 105, 102, 121] /- modify -/,
  [109, 111, 109] /- mom -/,
  [109, 111, 109, 101, 110, 116] /- moment -/,
  [109, 111, 110, 105, 116, 111, 114] /- monitor -/,
  [109, 111, 110, 107, 101, 121] /- monkey -/,
  [109, 111, 110, 115, 116, 101, 114] /- monster -/,
  [109, 111, 110, 116, 104] /- month -/,
  [109, 111, 111, 110] /- moon -/,
  [109, 111, 114, 97, 108] /- moral -/,
  [109, 111, 114, 101] /- more -/,
  [109, 111, 114, 110, 105, 110, 103] /- morning -/]

/-- aiootp/_constants/datasets.py:1524-1651, part of `WORD_LIST`, as ASCII codes (generated from that file). -/
def words9 : List Bytes := [
  [109, 111, 115, 113, 117, 105, 116, 111] /- mosquito -/,
  [109, 111, 116, 104, 101, 114] /- mother -/,
  [109, 111, 116, 105, 111, 110] /- motion -/,
  [109, 111, 116, 111, 114] /- motor -/,
  [109, 111, 117, 110, 116, 97, 105, 110] /- mountain -/,
  [109, 111, 117, 115, 101] /- mouse -/,
  [109, 111, 118, 101] /- move -/,
  [109, 111, 118, 105, 101] /- movie -/,
  [109, 117, 99, 104] /- much -/,
  [109, 117, 102, 102, 105, 110] /- muffin -/,
  [109, 117, 108, 101] /- mule -/,
  [109, 117, 108, 116, 105, 112, 108, 121] /- multiply -/,
  [109, 117, 115, 99, 108, 101] /- muscle -/,
  [109, 117, 115, 101, 117, 109] /- museum -/,
  [109, 117, 115, 104, 114, 111, 111, 109] /- mushroom -/,
  [109, 117, 115, 105, 99] /- music -/,
  [109, 117, 115, 116] /- must -/,
  [109, 117, 116, 117, 97, 108] /- mutual -/,
  [109, 121, 115, 101, 108, 102] /- myself -/,
  [109, 121, 115, 116, 101, 114, 121] /- mystery -/,
  [109, 121, 116, 104] /- myth -/,
  [110, 97, 105, 118, 101] /- naive -/,
  [110, 97, 109, 101] /- name -/,
  [110, 97, 112, 107, 105, 110] /- napkin -/,
  [110, 97, 114, 114, 111, 119] /- narrow -/,
  [110, 97, 115, 116, 121] /- nasty -/,
  [110, 97, 116, 105, 111, 110] /- nation -/,
  [110, 97, 116, 117, 114, 101] /- nature -/,
  [110, 101, 97, 114] /- near -/,
  [110, 101, 99, 107] /- neck -/,
  [110, 101, 101, 100] /- need -/,
  [110, 101, 103, 97, 116, 105, 118, 101] /- negative -/,
  [110, 101, 103, 108, 101, 99, 116] /- neglect -/,
  [110, 101, 105, 116, 104, 101, 114] /- neither -/,
  [110, 101, 112, 104, 101, 119] /- nephew -/,
  [110, 101, 114, 118, 101] /- nerve -/,
  [110, 101, 115, 116] /- nest -/,
  [110, 101, 116] /- net -/,
  [110, 101, 116, 119, 111, 114, 107] /- network -/,
  [110, 101, 117, 116, 114, 97, 108] /- neutral -/,
  [110, 101, 118, 101, 114] /- never -/,
  [110, 101, 119, 115] /- news -/,
  [110, 101, 120, 116] /- next -/,
  [110, 105, 99, 101] /- nice -/,
  [110, 105, 103, 104, 116] /- night -/,
  [110, 111, 98, 108, 101] /- noble -/,
  [110, 111, 105, 115, 101] /- noise -/,
  [110, 111, 109, 105, 110, 101, 101] /- nominee -/,
  [110, 111, 111, 100, 108, 101] /- noodle -/,
  [110, 111, 114, 109, 97, 108] /- normal -/,
  [110, 111, 114, 116, 104] /- north -/,
  [110, 111, 115, 101] /- nose -/,
  [110, 111, 116, 97, 98, 108, 101] /- notable -/,
  [110, 111, 116, 101] /- note -/,
  [110, 111, 116, 104, 105, 110, 103] /- nothing -/,
  [110, 111, 116, 105, 99, 101] /- notice -/,
  [110, 111, 118, 101, 108] /- novel -/,
  [110, 111, 119] /- now -/,
  [110, 117, 99, 108, 101, 97, 114] /- nuclear -/,
  [110, 117, 109, 98, 101, 114] /- number -/,
  [110, 117, 114, 115, 101] /- nurse -/,
  [110, 117, 116] /- nut -/,
  [111, 97, 107] /- oak -/,
  [111, 98, 101, 121] /- obey -/,
  [111, 98, 106, 101, 99, 116] /- object -/,
  [111, 98, 108, 105, 103, 101] /- oblige -/,
  [111, 98, 115, 99, 117, 114, 101] /- obscure -/,
  [111, 98, 115, 101, 114, 118, 101] /- observe -/,
  [111, 98, 116, 97, 105, 110] /- obtain -/,
  [111, 98, 118, 105, 111, 117, 115] /- obvious -/,
  [111, 99, 99, 117, 114] /- occur -/,
  [111, 99, 101, 97, 110] /- ocean -/,
  [111, 99, 116, 111, 98, 101, 114] /- october -/,
  [111, 100, 111, 114] /- odor -/,
  [111, 102, 102] /- off -/,
  [111, 102, 102, 101, 114] /- offer -/,
  [111, 102, 102, 105, 99, 101] /- office -/,
  [111, 102, 116, 101, 110] /- often -/,
  [111, 105, 108] /- oil -/,
  [111, 107, 97, 121] /- okay -/,
  [111, 108, 100] /- old -/,
  [111, 108, 105, 118, 101] /- olive -/,
  [111, 108, 121, 109, 112, 105, 99] /- olympic -/,
  [111, 109, 105, 116] /- omit -/,
  [111, 110, 99, 101] /- once -/,
  [111, 110, 101] /- one -/,
  [111, 110, 105, 111, 110] /- onion -/,
  [111, 110, 108, 105, 110, 101] /- online -/,
  [111, 110, 108, 121] /- only -/,
  [111, 112, 101, 110] /- open -/,
  [111, 112, 101, 114, 97] /- opera -/,
  [111, 112, 105, 110, 105, 111, 110] /- opinion -/,
  [111, 112, 112, 111, 115, 101] /- oppose -/,
  [111, 112, 116, 105, 111, 110] /- option -/,
  [111, 114, 97, 110, 103, 101] /- orange -/,
  [111, 114, 98, 105, 116] /- orbit -/,
  [111, 114, 99, 104, 97, 114, 100] /- orchard -/,
  [111, 114, 100, 101, 114] /- order -/,
  [111, 114, 100, 105, 110, 97, 114, 121] /- ordinary -/,
  [111, 114, 103, 97, 110] /- organ -/,
  [111, 114, 105, 101, 110, 116] /- orient -/,
  [111, 114, 105, 103, 105, 110, 97, 108] /- original -/,
  [111, 114, 112, 104, 97, 110] /- orphan -/,
  [111, 115, 116, 114, 105, 99, 104] /- ostrich -/,
  [111, 116, 104, 101, 114] /- other -/,
  [111, 117, 116, 100, 111, 111, 114] /- outdoor -/,
  [111, 117, 116, 101, 114] /- outer -/,
  [111, 117, 116, 112, 117, 116] /- output -/,
  [111, 117, 116, 115, 105, 100, 101] /- outside -/,
  [111, 118, 97, 108] /- oval -/,
  [111, 118, 101, 110] /- oven -/,
  [111, 118, 101, 114] /- over -/,
  [111, 119, 110] /- own -/,
  [111, 119, 110, 101, 114] /- owner -/,
  [111, 120, 121, 103, 101, 110] /- oxygen -/,
  [111, 121, 115, 116, 101, 114] /- oyster -/,
  [111, 122, 111, 110, 101] /- ozone -/,
  [112, 97, 99, 116] /- pact -/,
  [112, 97, 100, 100, 108, 101] /- paddle -/,
  [112, 97, 103, 101] /- page -/,
  [112, 97, 105, 114] /- pair -/,
  [112, 97, 108, 97, 99, 101] /- palace -/,
  [112, 97, 108, 109] /- palm -/,
  [112, 97, 110, 100, 97] /- panda -/,
  [112, 97, 110, 101, 108] /- panel -/,
  [112, 97, 110, 105, 99] /- panic -/,
  [112, 97, 110, 116, 104, 101, 114] /- panther -/,
  [112, 97, 112, 101, 114] /- paper -/]

/-- aiootp/_constants/datasets.py:1652-1779, part of `WORD_LIST`, as ASCII codes (generated from that file). -/
def words10 : List Bytes := [
  [112, 97, 114, 97, 100, 101] /- parade -/,
  [112, 97, 114, 101, 110, 116] /- parent -/,
  [112, 97, 114, 107] /- park -/,
  [112, 97, 114, 114, 111, 116] /- parrot -/,
  [112, 97, 114, 116, 121] /- party -/,
  [112, 97, 115, 115] /- pass -/,
  [112, 97, 116, 99, 104] /- patch -/,
  [112, 97, 116, 104] /- path -/,
  [112, 97, 116, 105, 101, 110, 116] /- patient -/,
  [112, 97, 116, 114, 111, 108] /- patrol -/,
  [112, 97, 116, 116, 101, 114, 110] /- pattern -/,
  [112, 97, 117, 115, 101] /- pause -/,
  [112, 97, 118, 101] /- pave -/,
  [112, 97, 121, 109, 101, 110, 116] /- payment -/,
  [112, 101, 97, 99, 101] /- peace -/,
  [112, 101, 97, 110, 117, 116] /- peanut -/,
  [112, 101, 97, 114] /- pear -/,
  [112, 101, 97, 115, 97, 110, 116] /- peasant -/,
  [112, 101, 108, 105, 99, 97, 110] /- pelican -/,
  [112, 101, 110] /- pen -/,
  [112, 101, 110, 97, 108, 116, 121] /- penalty -/,
  [112, 101, 110, 99, 105, 108] /- pencil -/,
  [112, 101, 111, 112, 108, 101] /- people -/,
  [112, 101, 112, 112, 101, 114] /- pepper -/,
  [112, 101, 114, 102, 101, 99, 116] /- perfect -/,
  [112, 101, 114, 109, 105, 116] /- permit -/,
  [112, 101, 114, 115, 111, 110] /- person -/,
  [112, 101, 116] /- pet -/,
  [112, 104, 111, 110, 101] /- phone -/,
  [112, 104, 111, 116, 111] /- photo -/,
  [112, 104, 114, 97, 115, 101] /- phrase -/,
  [112, 104, 121, 115, 105, 99, 97, 108] /- physical -/,
  [112, 105, 97, 110, 111] /- piano -/,
  [112, 105, 99, 110, 105, 99] /- picnic -/,
  [112, 105, 99, 116, 117, 114, 101] /- picture -/,
  [112, 105, 101, 99, 101] /- piece -/,
  [112, 105, 103] /- pig -/,
  [112, 105, 103, 101, 111, 110] /- pigeon -/,
  [112, 105, 108, 108] /- pill -/,
  [112, 105, 108, 111, 116] /- pilot -/,
  [112, 105, 110, 107] /- pink -/,
  [112, 105, 111, 110, 101, 101, 114] /- pioneer -/,
  [112, 105, 112, 101] /- pipe -/,
  [112, 105, 115, 116, 111, 108] /- pistol -/,
  [112, 105, 116, 99, 104] /- pitch -/,
  [112, 105, 122, 122, 97] /- pizza -/,
  [112, 108, 97, 99, 101] /- place -/,
  [112, 108, 97, 110, 101, 116] /- planet -/,
  [112, 108, 97, 115, 116, 105, 99] /- plastic -/,
  [112, 108, 97, 116, 101] /- plate -/,
  [112, 108, 97, 121] /- play -/,
  [112, 108, 101, 97, 115, 101] /- please -/,
  [112, 108, 101, 100, 103, 101] /- pledge -/,
  [112, 108, 117, 99, 107] /- pluck -/,
  [112, 108, 117, 103] /- plug -/,
  [112, 108, 117, 110, 103, 101] /- plunge -/,
  [112, 111, 101, 109] /- poem -/,
  [112, 111, 101, 116] /- poet -/,
  [112, 111, 105, 110, 116] /- point -/,
  [112, 111, 108, 97, 114] /- polar -/,
  [112, 111, 108, 101] /- pole -/,
  [112, 111, 108, 105, 99, 101] /- police -/,
  [112, 111, 110, 100] /- pond -/,
  [112, 111, 110, 121] /- pony -/,
  [112, 111, 111, 108] /- pool -/,
  [112, 111, 112, 117, 108, 97, 114] /- popular -/,
  [112, 111, 114, 116, 105, 111, 110] /- portion -/,
  [112, 111, 115, 105, 116, 105, 111, 110] /- position -/,
  [112, 111, 115, 115, 105, 98, 108, 101] /- possible -/,
  [112, 111, 115, 116] /- post -/,
  [112, 111, 116, 97, 116, 111] /- potato -/,
  [112, 111, 116, 116, 101, 114, 121] /- pottery -/,
  [112, 111, 118, 101, 114, 116, 121] /- poverty -/,
  [112, 111, 119, 100, 101, 114] /- powder -/,
  [112, 111, 119, 101, 114] /- power -/,
  [112, 114, 97, 99, 116, 105, 99, 101] /- practice -/,
  [112, 114, 97, 105, 115, 101] /- praise -/,
  [112, 114, 101, 100, 105, 99, 116] /- predict -/,
  [112, 114, 101, 102, 101, 114] /- prefer -/,
  [112, 114, 101, 112, 97, 114, 101] /- prepare -/,
  [112, 114, 101, 115, 101, 110, 116] /- present -/,
  [112, 114, 101, 116, 116, 121] /- pretty -/,
  [112, 114, 101, 118, 101, 110, 116] /- prevent -/,
  [112, 114, 105, 99, 101] /- price -/,
  [112, 114, 105, 100, 101] /- pride -/,
  [112, 114, 105, 109, 97, 114, 121] /- primary -/,
  [112, 114, 105, 110, 116] /- print -/,
  [112, 114, 105, 111, 114, 105, 116, 121] /- priority -/,
  [112, 114, 105, 115, 111, 110] /- prison -/,
  [112, 114, 105, 118, 97, 116, 101] /- private -/,
  [112, 114, 105, 122, 101] /- prize -/,
  [112, 114, 111, 98, 108, 101, 109] /- problem -/,
  [112, 114, 111, 99, 101, 115, 115] /- process -/,
  [112, 114, 111, 100, 117, 99, 101] /- produce -/,
  [112, 114, 111, 102, 105, 116] /- profit -/,
  [112, 114, 111, 103, 114, 97, 109] /- program -/,
  [112, 114, 111, 106, 101, 99, 116] /- project -/,
  [112, 114, 111, 109, 111, 116, 101] /- promote -/,
  [112, 114, 111, 111, 102] /- proof -/,
  [112, 114, 111, 112, 101, 114, 116, 121] /- property -/,
  [112, 114, 111, 115, 112, 101, 114] /- prosper -/,
  [112, 114, 111, 116, 101, 99, 116] /- protect -/,
  [112, 114, 111, 117, 100] /- proud -/,
  [112, 114, 111, 118, 105, 100, 101] /- provide -/,
  [112, 117, 98, 108, 105, 99] /- public -/,
  [112, 117, 100, 100, 105, 110, 103] /- pudding -/,
  [112, 117, 108, 108] /- pull -/,
  [112, 117, 108, 112] /- pulp -/,
  [112, 117, 108, 115, 101] /- pulse -/,
  [112, 117, 109, 112, 107, 105, 110] /- pumpkin -/,
  [112, 117, 110, 99, 104] /- punch -/,
  [112, 117, 112, 105, 108] /- pupil -/,
  [112, 117, 112, 112, 121] /- puppy -/,
  [112, 117, 114, 99, 104, 97, 115, 101] /- purchase -/,
  [112, 117, 114, 105, 116, 121] /- purity -/,
  [112, 117, 114, 112, 111, 115, 101] /- purpose -/,
  [112, 117, 114, 115, 101] /- purse -/,
  [112, 117, 115, 104] /- push -/,
  [112, 117, 116] /- put -/,
  [112, 117, 122, 122, 108, 101] /- puzzle -/,
  [112, 121, 114, 97, 109, 105, 100] /- pyramid -/,
  [113, 117, 97, 108, 105, 116, 121] /- quality -/,
  [113, 117, 97, 110, 116, 117, 109] /- quantum -/,
  [113, 117, 97, 114, 116, 101, 114] /- quarter -/,
  [113, 117, 101, 115, 116, 105, 111, 110] /- question -/,
  [113, 117, 105, 99, 107] /- quick -/,
  [113, 117, 105, 116] /- quit -/,
  [113, 117, 105, 122] /- quiz -/]

/-- aiootp/_constants/datasets.py:1780-1907, part of `WORD_LIST`, as ASCII codes (generated from that file). -/
def words11 : List Bytes := [
  [113, 117, 111, 116, 101] /- quote -/,
  [114, 97, 98, 98, 105, 116] /- rabbit -/,
  [114, 97, 99, 99, 111, 111, 110] /- raccoon -/,
  [114, 97, 99, 101] /- race -/,
  [114, 97, 99, 107] /- rack -/,
  [114, 97, 100, 97, 114] /- radar -/,
  [114, 97, 100, 105, 111] /- radio -/,
  [114, 97, 105, 108] /- rail -/,
  [114, 97, 105, 110] /- rain -/,
  [114, 97, 105, 115, 101] /- raise -/,
  [114, 97, 108, 108, 121] /- rally -/,
  [114, 97, 109, 112] /- ramp -/,
  [114, 97, 110, 99, 104] /- ranch -/,
  [114, 97, 110, 100, 111, 109] /- random -/,
  [114, 97, 110, 103, 101] /- range -/,
  [114, 97, 97, 97, 100] /- raaad -/,
  [114, 97, 114, 101] /- rare -/,
  [114, 97, 116, 101] /- rate -/,
  [114, 97, 116, 104, 101, 114] /- rather -/,
  [114, 97, 118, 101, 110] /- raven -/,
  [114, 97, 119] /- raw -/,
  [114, 97, 122, 111, 114] /- razor -/,
  [114, 101, 97, 100, 121] /- ready -/,
  [114, 101, 97, 108] /- real -/,
  [114, 101, 97, 115, 111, 110] /- reason -/,
  [114, 101, 98, 101, 108] /- rebel -/,
  [114, 101, 98, 117, 105, 108, 100] /- rebuild -/,
  [114, 101, 99, 97, 108, 108] /- recall -/,
  [114, 101, 99, 101, 105, 118, 101] /- receive -/,
  [114, 101, 99, 105, 112, 101] /- recipe -/,
  [114, 101, 99, 111, 114, 100] /- record -/,
  [114, 101, 99, 121, 99, 108, 101] /- recycle -/,
  [114, 101, 100, 117, 99, 101] /- reduce -/,
  [114, 101, 102, 108, 101, 99, 116] /- reflect -/,
  [114, 101, 102, 111, 114, 109] /- reform -/,
  [114, 101, 102, 117, 115, 101] /- refuse -/,
  [114, 101, 103, 105, 111, 110] /- region -/,
  [114, 101, 103, 114, 101, 116] /- regret -/,
  [114, 101, 103, 117, 108, 97, 114] /- regular -/,
  [114, 101, 106, 101, 99, 116] /- reject -/,
  [114, 101, 108, 97, 120] /- relax -/,
  [114, 101, 108, 101, 97, 115, 101] /- release -/,
  [114, 101, 108, 105, 101, 102] /- relief -/,
  [114, 101, 108, 121] /- rely -/,
  [114, 101, 109, 97, 105, 110] /- remain -/,
  [114, 101, 109, 101, 109, 98, 101, 114] /- remember -/,
  [114, 101, 109, 105, 110, 100] /- remind -/,
  [114, 101, 109, 111, 118, 101] /- remove -/,
  [114, 101, 110, 100, 101, 114] /- render -/,
  [114, 101, 110, 101, 119] /- renew -/,
  [114, 101, 110, 116] /- rent -/,
  [114, 101, 111, 112, 101, 110] /- reopen -/,
  [114, 101, 112, 97, 105, 114] /- repair -/,
  [114, 101, 112, 101, 97, 116] /- repeat -/,
  [114, 101, 112, 108, 97, 99, 101] /- replace -/,
  [114, 101, 112, 111, 114, 116] /- report -/,
  [114, 101, 113, 117, 105, 114, 101] /- require -/,
  [114, 101, 115, 99, 117, 101] /- rescue -/,
  [114, 101, 115, 101, 109, 98, 108, 101] /- resemble -/,
  [114, 101, 115, 105, 115, 116] /- resist -/,
  [114, 101, 115, 111, 117, 114, 99, 101] /- resource -/,
  [114, 101, 115, 112, 111, 110, 115, 101] /- response -/,
  [114, 101, 115, 117, 108, 116] /- result -/,
  [114, 101, 116, 105, 114, 101] /- retire -/,
  [114, 101, 116, 114, 101, 97, 116] /- retreat -/,
  [114, 101, 116, 117, 114, 110] /- return -/,
  [114, 101, 117, 110, 105, 111, 110] /- reunion -/,
  [114, 101, 118, 101, 97, 108] /- reveal -/,
  [114, 101, 118, 105, 101, 119] /- review -/,
  [114, 101, 119, 97, 114, 100] /- reward -/,
  [114, 104, 121, 116, 104, 109] /- rhythm -/,
  [114, 105, 98] /- rib -/,
  [114, 105, 98, 98, 111, 110] /- ribbon -/,
  [114, 105, 99, 101] /- rice -/,
  [114, 105, 99, 104] /- rich -/,
  [114, 105, 100, 101] /- ride -/,
  [114, 105, 100, 103, 101] /- ridge -/,
  [114, 105, 102, 108, 101] /- rifle -/,
  [114, 105, 103, 104, 116] /- right -/,
  [114, 105, 103, 105, 100] /- rigid -/,
  [114, 105, 110, 103] /- ring -/,
  [114, 105, 111, 116] /- riot -/,
  [114, 105, 112, 112, 108, 101] /- ripple -/,
  [114, 105, 115, 107] /- risk -/,
  [114, 105, 116, 117, 97, 108] /- ritual -/,
  [114, 105, 118, 97, 108] /- rival -/,
  [114, 105, 118, 101, 114] /- river -/,
  [114, 111, 97, 100] /- road -/,
  [114, 111, 97, 115, 116] /- roast -/,
  [114, 111, 98, 111, 116] /- robot -/,
  [114, 111, 98, 117, 115, 116] /- robust -/,
  [114, 111, 99, 107, 101, 116] /- rocket -/,
  [114, 111, 109, 97, 110, 99, 101] /- romance -/,
  [114, 111, 111, 102] /- roof -/,
  [114, 111, 111, 107, 105, 101] /- rookie -/,
  [114, 111, 111, 109] /- room -/,
  [114, 111, 115, 101] /- rose -/,
  [114, 111, 116, 97, 116, 101] /- rotate -/,
  [114, 111, 117, 103, 104] /- rough -/,
  [114, 111, 117, 110, 100] /- round -/,
  [114, 111, 117, 116, 101] /- route -/,
  [114, 111, 121, 97, 108] /- royal -/,
  [114, 117, 98, 98, 101, 114] /- rubber -/,
  [114, 117, 100, 101] /- rude -/,
  [114, 117, 103] /- rug -/,
  [114, 117, 108, 101] /- rule -/,
  [114, 117, 110] /- run -/,
  [114, 117, 110, 119, 97, 121] /- runway -/,
  [114, 117, 114, 97, 108] /- rural -/,
  [115, 97, 100] /- sad -/,
  [115, 97, 100, 100, 108, 101] /- saddle -/,
  [115, 97, 100, 110, 101, 115, 115] /- sadness -/,
  [115, 97, 102, 101] /- safe -/,
  [115, 97, 105, 108] /- sail -/,
  [115, 97, 108, 97, 100] /- salad -/,
  [115, 97, 108, 109, 111, 110] /- salmon -/,
  [115, 97, 108, 111, 110] /- salon -/,
  [115, 97, 108, 116] /- salt -/,
  [115, 97, 108, 117, 116, 101] /- salute -/,
  [115, 97, 109, 101] /- same -/,
  [115, 97, 109, 112, 108, 101] /- sample -/,
  [115, 97, 110, 100] /- sand -/,
  [115, 97, 116, 105, 115, 102, 121] /- satisfy -/,
  [115, 97, 116, 111, 115, 104, 105] /- satoshi -/,
  [115, 97, 117, 99, 101] /- sauce -/,
  [115, 97, 117, 115, 97, 103, 101] /- sausage -/,
  [115, 97, 118, 101] /- save -/,
  [115, 97, 121] /- say -/]

/-- aiootp/_constants/datasets.py:1908-2035, part of `WORD_LIST`, as ASCII codes (generated from that file). -/
def words12 : List Bytes := [
  [115, 99, 97, 108, 101] /- scale -/,
  [115, 99, 97, 110] /- scan -/,
  [115, 99, 97, 114, 101] /- scare -/,
  [115, 99, 97, 116, 116, 101, 114] /- scatter -/,
  [115, 99, 101, 110, 101] /- scene -/,
  [115, 99, 104, 101, 109, 101] /- scheme -/,
  [115, 99, 104, 111, 111, 108] /- school -/,
  [115, 99, 105, 101, 110, 99, 101] /- science -/,
  [115, 99, 105, 115, 115, 111, 114, 115] /- scissors -/,
  [115, 99, 111, 114, 112, 105, 111, 110] /- scorpion -/,
  [115, 99, 111, 117, 116] /- scout -/,
  [115, 99, 114, 97, 112] /- scrap -/,
  [115, 99, 114, 101, 101, 110] /- screen -/,
  [115, 99, 114, 105, 112, 116] /- script -/,
  [115, 99, 114, 117, 98] /- scrub -/,
  [115, 101, 97] /- sea -/,
  [115, 101, 97, 114, 99, 104] /- search -/,
  [115, 101, 97, 115, 111, 110] /- season -/,
  [115, 101, 97, 116] /- seat -/,
  [115, 101, 99, 111, 110, 100] /- second -/,
  [115, 101, 99, 114, 101, 116] /- secret -/,
  [115, 101, 99, 116, 105, 111, 110] /- section -/,
  [115, 101, 99, 117, 114, 105, 116, 121] /- security -/,
  [115, 101, 101, 100] /- seed -/,
  [115, 101, 101, 107] /- seek -/,
  [115, 101, 103, 109, 101, 110, 116] /- segment -/,
  [115, 101, 108, 101, 99, 116] /- select -/,
  [115, 101, 108, 108] /- sell -/,
  [115, 101, 109, 105, 110, 97, 114] /- seminar -/,
  [115, 101, 110, 105, 111, 114] /- senior -/,
  [115, 101, 110, 115, 101] /- sense -/,
  [115, 101, 110, 116, 101, 110, 99, 101] /- sentence -/,
  [115, 101, 114, 105, 101, 115] /- series -/,
  [115, 101, 114, 118, 105, 99, 101] /- service -/,
  [115, 101, 115, 115, 105, 111, 110] /- session -/,
  [115, 101, 116, 116, 108, 101] /- settle -/,
  [115, 101, 116, 117, 112] /- setup -/,
  [115, 101, 118, 101, 110] /- seven -/,
  [115, 104, 97, 100, 111, 119] /- shadow -/,
  [115, 104, 97, 102, 116] /- shaft -/,
  [115, 104, 97, 108, 108, 111, 119] /- shallow -/,
  [115, 104, 97, 114, 101] /- share -/,
  [115, 104, 101, 100] /- shed -/,
  [115, 104, 101, 108, 108] /- shell -/,
  [115, 104, 101, 114, 105, 102, 102] /- sheriff -/,
  [115, 104, 105, 101, 108, 100] /- shield -/,
  [115, 104, 105, 102, 116] /- shift -/,
  [115, 104, 105, 110, 101] /- shine -/,
  [115, 104, 105, 112] /- ship -/,
  [115, 104, 105, 118, 101, 114] /- shiver -/,
  [115, 104, 111, 99, 107] /- shock -/,
  [115, 104, 111, 101] /- shoe -/,
  [115, 104, 111, 111, 116] /- shoot -/,
  [115, 104, 111, 112] /- shop -/,
  [115, 104, 111, 114, 116] /- short -/,
  [115, 104, 111, 117, 108, 100, 101, 114] /- shoulder -/,
  [115, 104, 111, 118, 101] /- shove -/,
  [115, 104, 114, 105, 109, 112] /- shrimp -/,
  [115, 104, 114, 117, 103] /- shrug -/,
  [115, 104, 117, 102, 102, 108, 101] /- shuffle -/,
  [115, 104, 121] /- shy -/,
  [115, 105, 98, 108, 105, 110, 103] /- sibling -/,
  [115, 105, 99, 107] /- sick -/,
  [115, 105, 100, 101] /- side -/,
  [115, 105, 101, 103, 101] /- siege -/,
  [115, 105, 103, 104, 116] /- sight -/,
  [115, 105, 103, 110] /- sign -/,
  [115, 105, 108, 101, 110, 116] /- silent -/,
  [115, 105, 108, 107] /- silk -/,
  [115, 105, 108, 108, 121] /- silly -/,
  [115, 105, 108, 118, 101, 114] /- silver -/,
  [115, 105, 109, 105, 108, 97, 114] /- similar -/,
  [115, 105, 109, 112, 108, 101] /- simple -/,
  [115, 105, 110, 99, 101] /- since -/,
  [115, 105, 110, 103] /- sing -/,
  [115, 105, 114, 101, 110] /- siren -/,
  [115, 105, 115, 116, 101, 114] /- sister -/,
  [115, 105, 116, 117, 97, 116, 101] /- situate -/,
  [115, 105, 120] /- six -/,
  [115, 105, 122, 101] /- size -/,
  [115, 107, 97, 116, 101] /- skate -/,
  [115, 107, 101, 116, 99, 104] /- sketch -/,
  [115, 107, 105] /- ski -/,
  [115, 107, 105, 108, 108] /- skill -/,
  [115, 107, 105, 110] /- skin -/,
  [115, 107, 105, 114, 116] /- skirt -/,
  [115, 107, 117, 108, 108] /- skull -/,
  [115, 108, 97, 98] /- slab -/,
  [115, 108, 97, 109] /- slam -/,
  [115, 108, 101, 101, 112] /- sleep -/,
  [115, 108, 101, 110, 100, 101, 114] /- slender -/,
  [115, 108, 105, 99, 101] /- slice -/,
  [115, 108, 105, 100, 101] /- slide -/,
  [115, 108, 105, 103, 104, 116] /- slight -/,
  [115, 108, 105, 109] /- slim -/,
  [115, 108, 111, 103, 97, 110] /- slogan -/,
  [115, 108, 111, 116] /- slot -/,
  [115, 108, 111, 119] /- slow -/,
  [115, 108, 117, 115, 104] /- slush -/,
  [115, 109, 97, 108, 108] /- small -/,
  [115, 109, 97, 114, 116] /- smart -/,
  [115, 109, 105, 108, 101] /- smile -/,
  [115, 109, 111, 107, 101] /- smoke -/,
  [115, 109, 111, 111, 116, 104] /- smooth -/,
  [115, 110, 97, 99, 107] /- snack -/,
  [115, 110, 97, 107, 101] /- snake -/,
  [115, 110, 97, 112] /- snap -/,
  [115, 110, 105, 102, 102] /- sniff -/,
  [115, 110, 111, 119] /- snow -/,
  [115, 111, 97, 112] /- soap -/,
  [115, 111, 99, 99, 101, 114] /- soccer -/,
  [115, 111, 99, 105, 97, 108] /- social -/,
  [115, 111, 99, 107] /- sock -/,
  [115, 111, 100, 97] /- soda -/,
  [115, 111, 102, 116] /- soft -/,
  [115, 111, 108, 97, 114] /- solar -/,
  [115, 111, 108, 100, 105, 101, 114] /- soldier -/,
  [115, 111, 108, 105, 100] /- solid -/,
  [115, 111, 108, 117, 116, 105, 111, 110] /- solution -/,
  [115, 111, 108, 118, 101] /- solve -/,
  [115, 111, 109, 101, 111, 110, 101] /- someone -/,
  [115, 111, 110, 103] /- song -/,
  [115, 111, 111, 110] /- soon -/,
  [115, 111, 114, 114, 121] /- sorry -/,
  [115, 111, 114, 116] /- sort -/,
  [115, 111, 117, 108] /- soul -/,
  [115, 111, 117, 110, 100] /- sound -/,
  [115, 111, 117, 112] /- soup -/]

/-- aiootp/_constants/datasets.py:2036-2163, part of `WORD_LIST`, as ASCII codes (generated from that file). -/
def words13 : List Bytes := [
  [115, 111, 117, 114, 99, 101] /- source -/,
  [115, 111, 117, 116, 104] /- south -/,
  [115, 112, 97, 99, 101] /- space -/,
  [115, 112, 97, 114, 101] /- spare -/,
  [115, 112, 97, 116, 105, 97, 108] /- spatial -/,
  [115, 112, 97, 119, 110] /- spawn -/,
  [115, 112, 101, 97, 107] /- speak -/,
  [115, 112, 101, 99, 105, 97, 108] /- special -/,
  [115, 112, 101, 101, 100] /- speed -/,
  [115, 112, 101, 108, 108] /- spell -/,
  [115, 112, 101, 110, 100] /- spend -/,
  [115, 112, 104, 101, 114, 101] /- sphere -/,
  [115, 112, 105, 99, 101] /- spice -/,
  [115, 97, 97, 100, 101, 114] /- saader -/,
  [115, 112, 105, 107, 101] /- spike -/,
  [115, 112, 105, 110] /- spin -/,
  [115, 112, 105, 114, 105, 116] /- spirit -/,
  [115, 112, 108, 105, 116] /- split -/,
  [115, 112, 111, 105, 108] /- spoil -/,
  [115, 112, 111, 110, 115, 111, 114] /- sponsor -/,
  [115, 112, 111, 111, 110] /- spoon -/,
  [115, 112, 111, 114, 116] /- sport -/,
  [115, 112, 111, 116] /- spot -/,
  [115, 112, 114, 97, 121] /- spray -/,
  [115, 112, 114, 101, 97, 100] /- spread -/,
  [115, 112, 114, 105, 110, 103] /- spring -/,
  [115, 112, 121] /- spy -/,
  [115, 113, 117, 97, 114, 101] /- square -/,
  [115, 113, 117, 101, 101, 122, 101] /- squeeze -/,
  [115, 113, 117, 105, 114, 114, 101, 108] /- squirrel -/,
  [115, 116, 97, 98, 108, 101] /- stable -/,
  [115, 116, 97, 100, 105, 117, 109] /- stadium -/,
  [115, 116, 97, 102, 102] /- staff -/,
  [115, 116, 97, 103, 101] /- stage -/,
  [115, 116, 97, 105, 114, 115] /- stairs -/,
  [115, 116, 97, 109, 112] /- stamp -/,
  [115, 116, 97, 110, 100] /- stand -/,
  [115, 116, 97, 114, 116] /- start -/,
  [115, 116, 97, 116, 101] /- state -/,
  [115, 116, 97, 121] /- stay -/,
  [115, 116, 101, 97, 107] /- steak -/,
  [115, 116, 101, 101, 108] /- steel -/,
  [115, 116, 101, 109] /- stem -/,
  [115, 116, 101, 112] /- step -/,
  [115, 116, 101, 114, 101, 111] /- stereo -/,
  [115, 116, 105, 99, 107] /- stick -/,
  [115, 116, 105, 108, 108] /- still -/,
  [115, 116, 105, 110, 103] /- sting -/,
  [115, 116, 111, 99, 107] /- stock -/,
  [115, 116, 111, 109, 97, 99, 104] /- stomach -/,
  [115, 116, 111, 110, 101] /- stone -/,
  [115, 116, 111, 111, 108] /- stool -/,
  [115, 116, 111, 114, 121] /- story -/,
  [115, 116, 111, 118, 101] /- stove -/,
  [115, 116, 114, 97, 116, 101, 103, 121] /- strategy -/,
  [115, 116, 114, 101, 101, 116] /- street -/,
  [115, 116, 114, 105, 107, 101] /- strike -/,
  [115, 116, 114, 111, 110, 103] /- strong -/,
  [115, 116, 114, 117, 103, 103, 108, 101] /- struggle -/,
  [115, 116, 117, 100, 101, 110, 116] /- student -/,
  [115, 116, 117, 102, 102] /- stuff -/,
  [115, 116, 117, 109, 98, 108, 101] /- stumble -/,
  [115, 116, 121, 108, 101] /- style -/,
  [115, 117, 98, 106, 101, 99, 116] /- subject -/,
  [115, 117, 98, 109, 105, 116] /- submit -/,
  [115, 117, 98, 119, 97, 121] /- subway -/,
  [115, 117, 99, 99, 101, 115, 115] /- success -/,
  [115, 117, 99, 104] /- such -/,
  [115, 117, 100, 100, 101, 110] /- sudden -/,
  [115, 117, 102, 102, 101, 114] /- suffer -/,
  [115, 117, 103, 97, 114] /- sugar -/,
  [115, 117, 103, 103, 101, 115, 116] /- suggest -/,
  [115, 117, 105, 116] /- suit -/,
  [115, 117, 109, 109, 101, 114] /- summer -/,
  [115, 117, 110] /- sun -/,
  [115, 117, 110, 110, 121] /- sunny -/,
  [115, 117, 110, 115, 101, 116] /- sunset -/,
  [115, 117, 112, 101, 114] /- super -/,
  [115, 117, 112, 112, 108, 121] /- supply -/,
  [115, 117, 112, 114, 101, 109, 101] /- supreme -/,
  [115, 117, 114, 101] /- sure -/,
  [115, 117, 114, 102, 97, 99, 101] /- surface -/,
  [115, 117, 114, 103, 101] /- surge -/,
  [115, 117, 114, 112, 114, 105, 115, 101] /- surprise -/,
  [115, 117, 114, 114, 111, 117, 110, 100] /- surround -/,
  [115, 117, 114, 118, 101, 121] /- survey -/,
  [115, 117, 115, 112, 101, 99, 116] /- suspect -/,
  [115, 117, 115, 116, 97, 105, 110] /- sustain -/,
  [115, 119, 97, 108, 108, 111, 119] /- swallow -/,
  [115, 119, 97, 109, 112] /- swamp -/,
  [115, 119, 97, 112] /- swap -/,
  [115, 119, 97, 114, 109] /- swarm -/,
  [115, 119, 101, 97, 114] /- swear -/,
  [115, 119, 101, 101, 116] /- sweet -/,
  [115, 119, 105, 102, 116] /- swift -/,
  [115, 119, 105, 109] /- swim -/,
  [115, 119, 105, 110, 103] /- swing -/,
  [115, 119, 105, 116, 99, 104] /- switch -/,
  [115, 119, 111, 114, 100] /- sword -/,
  [115, 121, 109, 98, 111, 108] /- symbol -/,
  [115, 121, 109, 112, 116, 111, 109] /- symptom -/,
  [115, 121, 114, 117, 112] /- syrup -/,
  [115, 121, 115, 116, 101, 109] /- system -/,
  [116, 97, 98, 108, 101] /- table -/,
  [116, 97, 99, 107, 108, 101] /- tackle -/,
  [116, 97, 103] /- tag -/,
  [116, 97, 105, 108] /- tail -/,
  [116, 97, 108, 101, 110, 116] /- talent -/,
  [116, 97, 108, 107] /- talk -/,
  [116, 97, 110, 107] /- tank -/,
  [116, 97, 112, 101] /- tape -/,
  [116, 97, 114, 103, 101, 116] /- target -/,
  [116, 97, 115, 107] /- task -/,
  [116, 97, 115, 116, 101] /- taste -/,
  [116, 97, 116, 116, 111, 111] /- tattoo -/,
  [116, 97, 120, 105] /- taxi -/,
  [116, 101, 97, 99, 104] /- teach -/,
  [116, 101, 97, 109] /- team -/,
  [116, 101, 108, 108] /- tell -/,
  [116, 101, 110] /- ten -/,
  [116, 101, 110, 97, 110, 116] /- tenant -/,
  [116, 101, 110, 110, 105, 115] /- tennis -/,
  [116, 101, 110, 116] /- tent -/,
  [116, 101, 114, 109] /- term -/,
  [116, 101, 115, 116] /- test -/,
  [116, 101, 120, 116] /- text -/,
  [116, 104, 97, 110, 107] /- thank -/,
  [116, 104, 97, 116] /- that -/]

/-- aiootp/_constants/datasets.py:2164-2291, part of `WORD_LIST`, as ASCII codes (generated from that file). -/
def words14 : List Bytes := [
  [116, 104, 101, 109, 101] /- theme -/,
  [116, 104, 101, 110] /- then -/,
  [116, 104, 101, 111, 114, 121] /- theory -/,
  [116, 104, 101, 114, 101] /- there -/,
  [116, 104, 101, 121] /- they -/,
  [116, 104, 105, 110, 103] /- thing -/,
  [116, 104, 105, 115] /- this -/,
  [116, 104, 111, 117, 103, 104, 116] /- thought -/,
  [116, 104, 114, 101, 101] /- three -/,
  [116, 104, 114, 105, 118, 101] /- thrive -/,
  [116, 104, 114, 111, 119] /- throw -/,
  [116, 104, 117, 109, 98] /- thumb -/,
  [116, 104, 117, 110, 100, 101, 114] /- thunder -/,
  [116, 105, 99, 107, 101, 116] /- ticket -/,
  [116, 105, 100, 101] /- tide -/,
  [116, 105, 103, 101, 114] /- tiger -/,
  [116, 105, 108, 116] /- tilt -/,
  [116, 105, 109, 98, 101, 114] /- timber -/,
  [116, 105, 109, 101] /- time -/,
  [116, 105, 110, 121] /- tiny -/,
  [116, 105, 112] /- tip -/,
  [116, 105, 114, 101, 100] /- tired -/,
  [116, 105, 115, 115, 117, 101] /- tissue -/,
  [116, 105, 116, 108, 101] /- title -/,
  [116, 111, 97, 115, 116] /- toast -/,
  [116, 111, 98, 97, 99, 99, 111] /- tobacco -/,
  [116, 111, 100, 97, 121] /- today -/,
  [116, 111, 100, 100, 108, 101, 114] /- toddler -/,
  [116, 111, 101] /- toe -/,
  [116, 111, 103, 101, 116, 104, 101, 114] /- together -/,
  [116, 111, 105, 108, 101, 116] /- toilet -/,
  [116, 111, 107, 101, 110] /- token -/,
  [116, 111, 109, 97, 116, 111] /- tomato -/,
  [116, 111, 109, 111, 114, 114, 111, 119] /- tomorrow -/,
  [116, 111, 110, 101] /- tone -/,
  [116, 111, 110, 103, 117, 101] /- tongue -/,
  [116, 111, 110, 105, 103, 104, 116] /- tonight -/,
  [116, 111, 111, 108] /- tool -/,
  [116, 111, 111, 116, 104] /- tooth -/,
  [116, 111, 112] /- top -/,
  [116, 111, 112, 105, 99] /- topic -/,
  [116, 111, 112, 112, 108, 101] /- topple -/,
  [116, 111, 114, 99, 104] /- torch -/,
  [116, 111, 114, 110, 97, 100, 111] /- tornado -/,
  [116, 111, 114, 116, 111, 105, 115, 101] /- tortoise -/,
  [116, 111, 115, 115] /- toss -/,
  [116, 111, 116, 97, 108] /- total -/,
  [116, 111, 117, 114, 105, 115, 116] /- tourist -/,
  [116, 111, 119, 97, 114, 100] /- toward -/,
  [116, 111, 119, 101, 114] /- tower -/,
  [116, 111, 119, 110] /- town -/,
  [116, 111, 121] /- toy -/,
  [116, 114, 97, 99, 107] /- track -/,
  [116, 114, 97, 100, 101] /- trade -/,
  [116, 114, 97, 102, 102, 105, 99] /- traffic -/,
  [116, 114, 97, 103, 105, 99] /- tragic -/,
  [116, 114, 97, 105, 110] /- train -/,
  [116, 114, 97, 110, 115, 102, 101, 114] /- transfer -/,
  [116, 114, 97, 112] /- trap -/,
  [116, 114, 97, 115, 104] /- trash -/,
  [116, 114, 97, 118, 101, 108] /- travel -/,
  [116, 114, 97, 121] /- tray -/,
  [116, 114, 101, 97, 116] /- treat -/,
  [116, 114, 101, 101] /- tree -/,
  [116, 114, 101, 110, 100] /- trend -/,
  [116, 114, 105, 97, 108] /- trial -/,
  [116, 114, 105, 98, 101] /- tribe -/,
  [116, 114, 105, 99, 107] /- trick -/,
  [116, 114, 105, 103, 103, 101, 114] /- trigger -/,
  [116, 114, 105, 109] /- trim -/,
  [116, 114, 105, 112] /- trip -/,
  [116, 114, 111, 112, 104, 121] /- trophy -/,
  [116, 114, 111, 117, 98, 108, 101] /- trouble -/,
  [116, 114, 117, 99, 107] /- truck -/,
  [116, 114, 117, 101] /- true -/,
  [116, 114, 117, 108, 121] /- truly -/,
  [116, 114, 117, 109, 112, 101, 116] /- trumpet -/,
  [116, 114, 117, 115, 116] /- trust -/,
  [116, 114, 117, 116, 104] /- truth -/,
  [116, 114, 121] /- try -/,
  [116, 117, 98, 101] /- tube -/,
  [116, 117, 105, 116, 105, 111, 110] /- tuition -/,
  [116, 117, 109, 98, 108, 101] /- tumble -/,
  [116, 117, 110, 97] /- tuna -/,
  [116, 117, 110, 110, 101, 108] /- tunnel -/,
  [116, 117, 114, 107, 101, 121] /- turkey -/,
  [116, 117, 114, 110] /- turn -/,
  [116, 117, 114, 116, 108, 101] /- turtle -/,
  [116, 119, 101, 108, 118, 101] /- twelve -/,
  [116, 119, 101, 110, 116, 121] /- twenty -/,
  [116, 119, 105, 99, 101] /- twice -/,
  [116, 119, 105, 110] /- twin -/,
  [116, 119, 105, 115, 116] /- twist -/,
  [116, 119, 111] /- two -/,
  [116, 121, 112, 101] /- type -/,
  [116, 121, 112, 105, 99, 97, 108] /- typical -/,
  [117, 103, 108, 121] /- ugly -/,
  [117, 109, 98, 114, 101, 108, 108, 97] /- umbrella -/,
  [117, 110, 97, 98, 108, 101] /- unable -/,
  [117, 110, 97, 119, 97, 114, 101] /- unaware -/,
  [117, 110, 99, 108, 101] /- uncle -/,
  [117, 110, 99, 111, 118, 101, 114] /- uncover -/,
  [117, 110, 100, 101, 114] /- under -/,
  [117, 110, 100, 111] /- undo -/,
  [117, 110, 102, 97, 105, 114] /- unfair -/,
  [117, 110, 102, 111, 108, 100] /- unfold -/,
  [117, 110, 104, 97, 112, 112, 121] /- unhappy -/,
  [117, 110, 105, 102, 111, 114, 109] /- uniform -/,
  [117, 110, 105, 113, 117, 101] /- unique -/,
  [117, 110, 105, 116] /- unit -/,
  [117, 110, 105, 118, 101, 114, 115, 101] /- universe -/,
  [117, 110, 107, 110, 111, 119, 110] /- unknown -/,
  [117, 110, 108, 111, 99, 107] /- unlock -/,
  [117, 110, 116, 105, 108] /- until -/,
  [117, 110, 117, 115, 117, 97, 108] /- unusual -/,
  [117, 110, 118, 101, 105, 108] /- unveil -/,
  [117, 112, 100, 97, 116, 101] /- update -/,
  [117, 112, 103, 114, 97, 100, 101] /- upgrade -/,
  [117, 112, 104, 111, 108, 100] /- uphold -/,
  [117, 112, 111, 110] /- upon -/,
  [117, 112, 112, 101, 114] /- upper -/,
  [117, 112, 115, 101, 116] /- upset -/,
  [117, 114, 98, 97, 110] /- urban -/,
  [117, 114, 103, 101] /- urge -/,
  [117, 115, 97, 103, 101] /- usage -/,
  [117, 115, 101] /- use -/,
  [117, 115, 101, 100] /- used -/,
  [117, 115, 101, 102, 117, 108] /- useful -/]

/-- aiootp/_constants/datasets.py:2292-2419, part of `WORD_LIST`, as ASCII codes (generated from that file). -/
def words15 : List Bytes := [
  [117, 115, 101, 108, 101, 115, 115] /- useless -/,
  [117, 115, 117, 97, 108] /- usual -/,
  [117, 116, 105, 108, 105, 116, 121] /- utility -/,
  [118, 97, 99, 97, 110, 116] /- vacant -/,
  [118, 97, 99, 117, 117, 109] /- vacuum -/,
  [118, 97, 103, 117, 101] /- vague -/,
  [118, 97, 108, 105, 100] /- valid -/,
  [118, 97, 108, 108, 101, 121] /- valley -/,
  [118, 97, 108, 118, 101] /- valve -/,
  [118, 97, 110] /- van -/,
  [118, 97, 110, 105, 115, 104] /- vanish -/,
  [118, 97, 112, 111, 114] /- vapor -/,
  [118, 97, 114, 105, 111, 117, 115] /- various -/,
  [118, 97, 115, 116] /- vast -/,
  [118, 97, 117, 108, 116] /- vault -/,
  [118, 101, 104, 105, 99, 108, 101] /- vehicle -/,
  [118, 101, 108, 118, 101, 116] /- velvet -/,
  [118, 101, 110, 100, 111, 114] /- vendor -/,
  [118, 101, 110, 116, 117, 114, 101] /- venture -/,
  [118, 101, 110, 117, 101] /- venue -/,
  [118, 101, 114, 98] /- verb -/,
  [118, 101, 114, 105, 102, 121] /- verify -/,
  [118, 101, 114, 115, 105, 111, 110] /- version -/,
  [118, 101, 114, 121] /- very -/,
  [118, 101, 115, 115, 101, 108] /- vessel -/,
  [118, 101, 116, 101, 114, 97, 110] /- veteran -/,
  [118, 105, 97, 98, 108, 101] /- viable -/,
  [118, 105, 98, 114, 97, 110, 116] /- vibrant -/,
  [118, 105, 99, 105, 111, 117, 115] /- vicious -/,
  [118, 105, 99, 116, 111, 114, 121] /- victory -/,
  [118, 105, 100, 101, 111] /- video -/,
  [118, 105, 101, 119] /- view -/,
  [118, 105, 108, 108, 97, 103, 101] /- village -/,
  [118, 105, 110, 116, 97, 103, 101] /- vintage -/,
  [118, 105, 111, 108, 105, 110] /- violin -/,
  [118, 105, 114, 116, 117, 97, 108] /- virtual -/,
  [118, 105, 114, 117, 115] /- virus -/,
  [118, 105, 115, 97] /- visa -/,
  [118, 105, 115, 105, 116] /- visit -/,
  [118, 105, 115, 117, 97, 108] /- visual -/,
  [118, 105, 116, 97, 108] /- vital -/,
  [118, 105, 118, 105, 100] /- vivid -/,
  [118, 111, 99, 97, 108] /- vocal -/,
  [118, 111, 105, 99, 101] /- voice -/,
  [118, 111, 105, 100] /- void -/,
  [118, 111, 108, 99, 97, 110, 111] /- volcano -/,
  [118, 111, 108, 117, 109, 101] /- volume -/,
  [118, 111, 116, 101] /- vote -/,
  [118, 111, 121, 97, 103, 101] /- voyage -/,
  [119, 97, 103, 101] /- wage -/,
  [119, 97, 103, 111, 110] /- wagon -/,
  [119, 97, 105, 116] /- wait -/,
  [119, 97, 108, 107] /- walk -/,
  [119, 97, 108, 108] /- wall -/,
  [119, 97, 108, 110, 117, 116] /- walnut -/,
  [119, 97, 110, 116] /- want -/,
  [119, 97, 114, 102, 97, 114, 101] /- warfare -/,
  [119, 97, 114, 109] /- warm -/,
  [119, 97, 114, 114, 105, 111, 114] /- warrior -/,
  [119, 97, 115, 104] /- wash -/,
  [119, 97, 115, 112] /- wasp -/,
  [119, 97, 115, 116, 101] /- waste -/,
  [119, 97, 116, 101, 114] /- water -/,
  [119, 97, 118, 101] /- wave -/,
  [119, 97, 121] /- way -/,
  [119, 101, 97, 108, 116, 104] /- wealth -/,
  [119, 101, 97, 112, 111, 110] /- weapon -/,
  [119, 101, 97, 114] /- wear -/,
  [119, 101, 97, 115, 101, 108] /- weasel -/,
  [119, 101, 97, 116, 104, 101, 114] /- weather -/,
  [119, 101, 98] /- web -/,
  [119, 101, 100, 100, 105, 110, 103] /- wedding -/,
  [119, 101, 101, 107, 101, 110, 100] /- weekend -/,
  [119, 101, 105, 114, 100] /- weird -/,
  [119, 101, 108, 99, 111, 109, 101] /- welcome -/,
  [119, 101, 115, 116] /- west -/,
  [119, 101, 116] /- wet -/,
  [119, 104, 97, 108, 101] /- whale -/,
  [119, 104, 97, 116] /- what -/,
  [119, 104, 101, 97, 116] /- wheat -/,
  [119, 104, 101, 101, 108] /- wheel -/,
  [119, 104, 101, 110] /- when -/,
  [119, 104, 101, 114, 101] /- where -/,
  [119, 104, 105, 112] /- whip -/,
  [119, 104, 105, 115, 112, 101, 114] /- whisper -/,
  [119, 105, 100, 101] /- wide -/,
  [119, 105, 100, 116, 104] /- width -/,
  [119, 105, 102, 101] /- wife -/,
  [119, 105, 108, 100] /- wild -/,
  [119, 105, 108, 108] /- will -/,
  [119, 105, 110] /- win -/,
  [119, 105, 110, 100, 111, 119] /- window -/,
  [119, 105, 110, 101] /- wine -/,
  [119, 105, 110, 103] /- wing -/,
  [119, 105, 110, 107] /- wink -/,
  [119, 105, 110, 110, 101, 114] /- winner -/,
  [119, 105, 110, 116, 101, 114] /- winter -/,
  [119, 105, 114, 101] /- wire -/,
  [119, 105, 115, 100, 111, 109] /- wisdom -/,
  [119, 105, 115, 101] /- wise -/,
  [119, 105, 115, 104] /- wish -/,
  [119, 105, 116, 110, 101, 115, 115] /- witness -/,
  [119, 111, 108, 102] /- wolf -/,
  [119, 111, 109, 97, 110] /- woman -/,
  [119, 111, 110, 100, 101, 114] /- wonder -/,
  [119, 111, 111, 100] /- wood -/,
  [119, 111, 111, 108] /- wool -/,
  [119, 111, 114, 100] /- word -/,
  [119, 111, 114, 107] /- work -/,
  [119, 111, 114, 108, 100] /- world -/,
  [119, 111, 114, 114, 121] /- worry -/,
  [119, 111, 114, 116, 104] /- worth -/,
  [119, 114, 97, 112] /- wrap -/,
  [119, 114, 101, 99, 107] /- wreck -/,
  [119, 114, 101, 115, 116, 108, 101] /- wrestle -/,
  [119, 114, 105, 115, 116] /- wrist -/,
  [119, 114, 105, 116, 101] /- write -/,
  [119, 114, 111, 110, 103] /- wrong -/,
  [121, 97, 114, 100] /- yard -/,
  [121, 101, 97, 114] /- year -/,
  [121, 101, 108, 108, 111, 119] /- yellow -/,
  [121, 111, 117] /- you -/,
  [121, 111, 117, 110, 103] /- young -/,
  [121, 111, 117, 116, 104] /- youth -/,
  [122, 101, 98, 114, 97] /- zebra -/,
  [122, 101, 114, 111] /- zero -/,
  [122, 111, 110, 101] /- zone -/,
  [122, 111, 111] /- zoo -/]

/-- aiootp/_constants/datasets.py:371-2420 `WORD_LIST`. -/
def wordList : List Bytes :=
  words0 ++ words1 ++ words2 ++ words3 ++ words4 ++ words5 ++ words6 ++ words7 ++
  words8 ++ words9 ++ words10 ++ words11 ++ words12 ++ words13 ++ words14 ++ words15

end Aiootp.Mnemonic
