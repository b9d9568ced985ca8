import Verif.Model.Py

namespace Aiootp.Text

/-- aiootp/_constants/datasets.py:2423-2680 `_WORD_LIST_256`, as ASCII codes (generated from that file). -/
def wordList256 : List Bytes := [
  [97] /- a -/,
  [97, 98, 108, 101] /- able -/,
  [97, 98, 111, 117, 116] /- about -/,
  [97, 98, 111, 118, 101] /- above -/,
  [97, 99, 99, 111, 117, 110, 116] /- account -/,
  [97, 99, 116] /- act -/,
  [97, 102, 116, 101, 114] /- after -/,
  [97, 108, 108] /- all -/,
  [97, 108, 115, 111] /- also -/,
  [97, 110] /- an -/,
  [97, 110, 100] /- and -/,
  [97, 110, 111, 116, 104, 101, 114] /- another -/,
  [97, 110, 121] /- any -/,
  [97, 115] /- as -/,
  [97, 115, 107] /- ask -/,
  [97, 116] /- at -/,
  [97, 116, 101] /- ate -/,
  [98, 97, 99, 107] /- back -/,
  [98, 97, 100] /- bad -/,
  [98, 101] /- be -/,
  [98, 101, 99, 97, 117, 115, 101] /- because -/,
  [98, 101, 102, 111, 114, 101] /- before -/,
  [98, 101, 115, 116] /- best -/,
  [98, 105, 103] /- big -/,
  [98, 111, 111, 107] /- book -/,
  [98, 114, 101, 97, 107] /- break -/,
  [98, 117, 116] /- but -/,
  [98, 121] /- by -/,
  [99, 97, 108, 108] /- call -/,
  [99, 97, 110] /- can -/,
  [99, 97, 115, 101] /- case -/,
  [99, 104, 105, 108, 108] /- chill -/,
  [99, 108, 111, 115, 101] /- close -/,
  [99, 111, 109, 105, 110, 103] /- coming -/,
  [99, 111, 111, 108] /- cool -/,
  [99, 111, 112, 121] /- copy -/,
  [99, 111, 117, 108, 100] /- could -/,
  [99, 117, 116] /- cut -/,
  [100, 97, 116, 101] /- date -/,
  [100, 97, 121] /- day -/,
  [100, 101, 97, 108] /- deal -/,
  [100, 105, 100] /- did -/,
  [100, 105, 102, 102, 101, 114, 101, 110, 116] /- different -/,
  [100, 111] /- do -/,
  [100, 111, 101, 115] /- does -/,
  [100, 111, 110, 101] /- done -/,
  [100, 111, 119, 110] /- down -/,
  [101, 97, 99, 104] /- each -/,
  [101, 97, 114, 108, 121] /- early -/,
  [101, 97, 114, 116, 104] /- earth -/,
  [101, 97, 115, 121] /- easy -/,
  [101, 97, 116, 115] /- eats -/,
  [101, 100, 105, 116] /- edit -/,
  [101, 110, 100] /- end -/,
  [101, 118, 101, 110] /- even -/,
  [101, 118, 101, 114, 121] /- every -/,
  [101, 121, 101, 115] /- eyes -/,
  [102, 97, 99, 101] /- face -/,
  [102, 97, 99, 116, 115] /- facts -/,
  [102, 101, 101, 108] /- feel -/,
  [102, 101, 119] /- few -/,
  [102, 105, 110, 100] /- find -/,
  [102, 105, 114, 115, 116] /- first -/,
  [102, 111, 114] /- for -/,
  [102, 114, 101, 101] /- free -/,
  [102, 114, 105, 100, 97, 121] /- friday -/,
  [102, 114, 105, 101, 110, 100] /- friend -/,
  [102, 114, 111, 109] /- from -/,
  [103, 97, 105, 110, 115] /- gains -/,
  [103, 101, 116] /- get -/,
  [103, 105, 114, 108] /- girl -/,
  [103, 105, 118, 105, 110, 103] /- giving -/,
  [103, 111, 105, 110, 103] /- going -/,
  [103, 111, 110, 101] /- gone -/,
  [103, 111, 111, 100] /- good -/,
  [103, 114, 101, 97, 116] /- great -/,
  [103, 114, 111, 117, 112] /- group -/,
  [103, 117, 105, 100, 101, 115] /- guides -/,
  [104, 97, 110, 100] /- hand -/,
  [104, 97, 118, 101] /- have -/,
  [104, 101] /- he -/,
  [104, 101, 97, 100] /- head -/,
  [104, 101, 108, 100] /- held -/,
  [104, 101, 108, 112] /- help -/,
  [104, 101, 114] /- her -/,
  [104, 101, 114, 115] /- hers -/,
  [104, 105, 103, 104] /- high -/,
  [104, 105, 109] /- him -/,
  [104, 105, 115] /- his -/,
  [104, 111, 109, 101] /- home -/,
  [104, 111, 119] /- how -/,
  [105] /- i -/,
  [105, 100, 101, 97] /- idea -/,
  [105, 102] /- if -/,
  [105, 108, 108] /- ill -/,
  [105, 109, 97, 103, 101] /- image -/,
  [105, 109, 112, 97, 99, 116] /- impact -/,
  [105, 109, 112, 111, 114, 116, 97, 110, 116] /- important -/,
  [105, 110] /- in -/,
  [105, 110, 100, 101, 101, 100] /- indeed -/,
  [105, 110, 102, 111] /- info -/,
  [105, 110, 116, 111] /- into -/,
  [105, 115] /- is -/,
  [105, 116] /- it -/,
  [105, 116, 115] /- its -/,
  [106, 117, 109, 112] /- jump -/,
  [106, 117, 115, 116] /- just -/,
  [107, 101, 101, 112, 115] /- keeps -/,
  [107, 101, 121] /- key -/,
  [107, 105, 110, 100] /- kind -/,
  [107, 110, 111, 119] /- know -/,
  [108, 97, 114, 103, 101] /- large -/,
  [108, 97, 115, 116] /- last -/,
  [108, 101, 97, 100] /- lead -/,
  [108, 101, 102, 116] /- left -/,
  [108, 101, 115, 115] /- less -/,
  [108, 105, 102, 101] /- life -/,
  [108, 105, 107, 101] /- like -/,
  [108, 105, 110, 101] /- line -/,
  [108, 105, 110, 107] /- link -/,
  [108, 105, 116, 116, 108, 101] /- little -/,
  [108, 105, 118, 101] /- live -/,
  [108, 111, 110, 103] /- long -/,
  [108, 111, 111, 107] /- look -/,
  [108, 111, 118, 105, 110, 103] /- loving -/,
  [109, 97, 107, 101] /- make -/,
  [109, 97, 110] /- man -/,
  [109, 97, 116, 99, 104] /- match -/,
  [109, 101] /- me -/,
  [109, 101, 115, 115, 97, 103, 101] /- message -/,
  [109, 105, 110, 101] /- mine -/,
  [109, 105, 120] /- mix -/,
  [109, 111, 110, 100, 97, 121] /- monday -/,
  [109, 111, 114, 101] /- more -/,
  [109, 111, 114, 110, 105, 110, 103] /- morning -/,
  [109, 111, 115, 116] /- most -/,
  [109, 111, 118, 105, 110, 103] /- moving -/,
  [109, 121] /- my -/,
  [110, 97, 109, 101] /- name -/,
  [110, 101, 101, 100] /- need -/,
  [110, 101, 118, 101, 114] /- never -/,
  [110, 101, 119] /- new -/,
  [110, 101, 120, 116] /- next -/,
  [110, 105, 103, 104, 116] /- night -/,
  [110, 111] /- no -/,
  [110, 111, 116] /- not -/,
  [110, 111, 119] /- now -/,
  [110, 117, 109, 98, 101, 114] /- number -/,
  [111, 102] /- of -/,
  [111, 102, 102] /- off -/,
  [111, 102, 102, 101, 114] /- offer -/,
  [111, 108, 100] /- old -/,
  [111, 110] /- on -/,
  [111, 110, 101] /- one -/,
  [111, 110, 108, 121] /- only -/,
  [111, 112, 101, 110] /- open -/,
  [111, 114] /- or -/,
  [111, 116, 104, 101, 114] /- other -/,
  [111, 117, 114] /- our -/,
  [111, 117, 116] /- out -/,
  [111, 118, 101, 114] /- over -/,
  [111, 119, 110] /- own -/,
  [112, 97, 103, 101] /- page -/,
  [112, 97, 114, 116] /- part -/,
  [112, 97, 115, 115] /- pass -/,
  [112, 101, 111, 112, 108, 101] /- people -/,
  [112, 101, 114, 115, 111, 110] /- person -/,
  [112, 108, 97, 99, 101] /- place -/,
  [112, 108, 97, 121] /- play -/,
  [112, 111, 105, 110, 116] /- point -/,
  [112, 111, 112] /- pop -/,
  [112, 114, 111, 98, 108, 101, 109] /- problem -/,
  [112, 117, 98, 108, 105, 99] /- public -/,
  [112, 117, 116] /- put -/,
  [113, 117, 105, 99, 107] /- quick -/,
  [113, 117, 105, 116] /- quit -/,
  [114, 101, 97, 100] /- read -/,
  [114, 101, 97, 108] /- real -/,
  [114, 101, 115, 116] /- rest -/,
  [114, 105, 103, 104, 116] /- right -/,
  [114, 117, 108, 101] /- rule -/,
  [114, 117, 110, 115] /- runs -/,
  [115, 97, 105, 100] /- said -/,
  [115, 97, 109, 101] /- same -/,
  [115, 97, 116, 117, 114, 100, 97, 121] /- saturday -/,
  [115, 97, 121, 105, 110, 103] /- saying -/,
  [115, 101, 101] /- see -/,
  [115, 101, 101, 109] /- seem -/,
  [115, 101, 116] /- set -/,
  [115, 104, 101] /- she -/,
  [115, 105, 103, 110] /- sign -/,
  [115, 109, 97, 108, 108] /- small -/,
  [115, 111] /- so -/,
  [115, 111, 109, 101] /- some -/,
  [115, 111, 109, 101, 116, 104, 105, 110, 103] /- something -/,
  [115, 111, 117, 110, 100] /- sound -/,
  [115, 117, 110, 100, 97, 121] /- sunday -/,
  [116, 97, 107, 101] /- take -/,
  [116, 101, 108, 108] /- tell -/,
  [116, 104, 97, 110] /- than -/,
  [116, 104, 97, 116] /- that -/,
  [116, 104, 101] /- the -/,
  [116, 104, 101, 105, 114] /- their -/,
  [116, 104, 101, 105, 114, 115] /- theirs -/,
  [116, 104, 101, 109] /- them -/,
  [116, 104, 101, 110] /- then -/,
  [116, 104, 101, 114, 101] /- there -/,
  [116, 104, 101, 115, 101] /- these -/,
  [116, 104, 101, 121] /- they -/,
  [116, 104, 105, 110, 103, 115] /- things -/,
  [116, 104, 105, 110, 107] /- think -/,
  [116, 104, 105, 115] /- this -/,
  [116, 104, 117, 114, 115, 100, 97, 121] /- thursday -/,
  [116, 105, 109, 101] /- time -/,
  [116, 111] /- to -/,
  [116, 111, 111] /- too -/,
  [116, 114, 121] /- try -/,
  [116, 117, 101, 115, 100, 97, 121] /- tuesday -/,
  [116, 117, 114, 110] /- turn -/,
  [116, 119, 111] /- two -/,
  [116, 121, 112, 101] /- type -/,
  [117, 110, 100, 101, 114] /- under -/,
  [117, 110, 100, 111] /- undo -/,
  [117, 110, 116, 105, 108] /- until -/,
  [117, 112] /- up -/,
  [117, 115] /- us -/,
  [117, 115, 101] /- use -/,
  [118, 101, 114, 121] /- very -/,
  [118, 105, 101, 119] /- view -/,
  [118, 111, 105, 99, 101] /- voice -/,
  [119, 97, 110, 116] /- want -/,
  [119, 97, 116, 101, 114] /- water -/,
  [119, 97, 121] /- way -/,
  [119, 101] /- we -/,
  [119, 101, 100, 110, 101, 115, 100, 97, 121] /- wednesday -/,
  [119, 101, 101, 107] /- week -/,
  [119, 101, 108, 108] /- well -/,
  [119, 104, 97, 116] /- what -/,
  [119, 104, 101, 110] /- when -/,
  [119, 104, 101, 114, 101] /- where -/,
  [119, 104, 105, 99, 104] /- which -/,
  [119, 104, 111] /- who -/,
  [119, 104, 121] /- why -/,
  [119, 105, 108, 108] /- will -/,
  [119, 105, 116, 104] /- with -/,
  [119, 111, 109, 97, 110] /- woman -/,
  [119, 111, 114, 100] /- word -/,
  [119, 111, 114, 107] /- work -/,
  [119, 111, 114, 108, 100] /- world -/,
  [119, 111, 117, 108, 100] /- would -/,
  [121, 101, 97, 114] /- year -/,
  [121, 101, 115] /- yes -/,
  [121, 111, 117] /- you -/,
  [121, 111, 117, 110, 103] /- young -/,
  [121, 111, 117, 114] /- your -/,
  [122, 111, 111, 109] /- zoom -/]

end Aiootp.Text
