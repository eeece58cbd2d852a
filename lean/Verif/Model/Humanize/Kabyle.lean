import Verif.Go.Texts
/-!
# The file of a locale

/repo/humanize/locale/kab/django.po, eight lines of the file per line.
-/
namespace Verif.Model.Humanize
open Verif.Go

/-- /repo/humanize/locale/kab/django.po:1-540. -/
def kabFile : Bytes :=
  t!"# This file is distributed under the same license as the Django package.\n# \n# Translators:\nmsgid \"\"\nmsgstr \"\"\n\"Project-Id-Version: django\\n\"\n\"Report-Msgid-Bugs-To: \\n\"\n\"POT-Creation-Date: 2019-09-27 22:40+0200\\n\"\n" ++
  t!"\"PO-Revision-Date: 2019-11-05 00:38+0000\\n\"\n\"Last-Translator: Ramiro Morales\\n\"\n\"Language-Team: Kabyle (http://www.transifex.com/django/django/language/kab/)\\n\"\n\"Language: kab\\n\"\n\"MIME-Version: 1.0\\n\"\n\"Content-Type: text/plain; charset=UTF-8\\n\"\n\"Content-Transfer-Encoding: 8bit\\n\"\n\"Plural-Forms: nplurals=2; plural=(n != 1);\\n\"\n" ++
  t!"\nmsgid \"%[1]d byte\"\nmsgid_plural \"%[1]d bytes\"\nmsgstr[0] \"\"\nmsgstr[1] \"\"\n\nmsgid \"%s GB\"\nmsgstr \"%s GAṬ\"\n" ++
  t!"\nmsgid \"%s KB\"\nmsgstr \"%s KAṬ\"\n\nmsgid \"%s MB\"\nmsgstr \"%s MAṬ\"\n\nmsgid \"%s PB\"\n" ++
  t!"msgstr \"%s PAṬ\"\n\nmsgid \"%s TB\"\nmsgstr \"%s TAṬ\"\n\nmsgid \", \"\nmsgstr \", \"\n\n" ++
  t!"msgid \"AM\"\nmsgstr \"FT\"\n\nmsgid \"Afrikaans\"\nmsgstr \"Tafrikanst\"\n\nmsgid \"Albanian\"\nmsgstr \"Talbanit\"\n" ++
  t!"\nmsgid \"April\"\nmsgstr \"Yebrir\"\n\nmsgid \"Arabic\"\nmsgstr \"Taɛṛabt\"\n\nmsgid \"Argentinian Spanish\"\n" ++
  t!"msgstr \"Taspanit n Arjuntin\"\n\nmsgid \"Armenian\"\nmsgstr \"\"\n\nmsgid \"Asturian\"\nmsgstr \"Tasturyant\"\n\n" ++
  t!"msgid \"August\"\nmsgstr \"Ɣuct\"\n\nmsgid \"Australian English\"\nmsgstr \"Taglizit n Ustralya\"\n\nmsgid \"Azerbaijani\"\nmsgstr \"Tazeṛbayǧant\"\n" ++
  t!"\nmsgid \"Basque\"\nmsgstr \"Tabaskit\"\n\nmsgid \"Belarusian\"\nmsgstr \"Tabilurusit\"\n\nmsgid \"Bengali\"\n" ++
  t!"msgstr \"Tabelgalit\"\n\nmsgid \"Bosnian\"\nmsgstr \"Tabusnit\"\n\nmsgid \"Brazilian Portuguese\"\nmsgstr \"\"\n\n" ++
  t!"msgid \"Breton\"\nmsgstr \"Tabrutunt\"\n\nmsgid \"British English\"\nmsgstr \"Taglizit (UK)\"\n\nmsgid \"Bulgarian\"\nmsgstr \"Tabulgarit\"\n" ++
  t!"\nmsgid \"Burmese\"\nmsgstr \"Tabirmanit\"\n\nmsgid \"Catalan\"\nmsgstr \"Takaṭalant\"\n\nmsgid \"Colombian Spanish\"\n" ++
  t!"msgstr \"Taspanit n Kulumbya\"\n\nmsgid \"Croatian\"\nmsgstr \"Takarwasit\"\n\nmsgid \"Czech\"\nmsgstr \"Tačikit\"\n\n" ++
  t!"msgid \"Danish\"\nmsgstr \"Tadanit\"\n\nmsgid \"December\"\nmsgstr \"Dujamber\"\n\nmsgid \"Dutch\"\nmsgstr \"Tahulandit\"\n" ++
  t!"\nmsgid \"English\"\nmsgstr \"Taglizit\"\n\nmsgid \"Esperanto\"\nmsgstr \"Taspirantit\"\n\nmsgid \"Estonian\"\n" ++
  t!"msgstr \"Tastunit\"\n\nmsgid \"February\"\nmsgstr \"Fuṛaṛ\"\n\nmsgid \"Finnish\"\nmsgstr \"Tafinit\"\n\n" ++
  t!"msgid \"French\"\nmsgstr \"Tafṛansist\"\n\nmsgid \"Fri\"\nmsgstr \"Sem\"\n\nmsgid \"Friday\"\nmsgstr \"Sem\"\n" ++
  t!"\nmsgid \"Frisian\"\nmsgstr \"\"\n\nmsgid \"Galician\"\nmsgstr \"\"\n\nmsgid \"Georgian\"\n" ++
  t!"msgstr \"Tajyuṛjit\"\n\nmsgid \"German\"\nmsgstr \"Talmanit\"\n\nmsgid \"Greek\"\nmsgstr \"Tagrigit\"\n\n" ++
  t!"msgid \"Hebrew\"\nmsgstr \"\"\n\nmsgid \"Hindi\"\nmsgstr \"Tahendit\"\n\nmsgid \"Hungarian\"\nmsgstr \"Tahungarit\"\n" ++
  t!"\nmsgid \"Icelandic\"\nmsgstr \"Taslandit\"\n\nmsgid \"Ido\"\nmsgstr \"\"\n\nmsgid \"Indonesian\"\n" ++
  t!"msgstr \"Tandunizit\"\n\nmsgid \"Interlingua\"\nmsgstr \"\"\n\nmsgid \"Irish\"\nmsgstr \"\"\n\n" ++
  t!"msgid \"Italian\"\nmsgstr \"Taṭelyanit\"\n\nmsgid \"January\"\nmsgstr \"Yennayer\"\n\nmsgid \"Japanese\"\nmsgstr \"\"\n" ++
  t!"\nmsgid \"July\"\nmsgstr \"Yulyu\"\n\nmsgid \"June\"\nmsgstr \"Yunyu\"\n\nmsgid \"Kabyle\"\n" ++
  t!"msgstr \"\"\n\nmsgid \"Kannada\"\nmsgstr \"Takannadat\"\n\nmsgid \"Kazakh\"\nmsgstr \"Takazaxt\"\n\n" ++
  t!"msgid \"Khmer\"\nmsgstr \"\"\n\nmsgid \"Korean\"\nmsgstr \"Takurit\"\n\nmsgid \"Latvian\"\nmsgstr \"Talitunit\"\n" ++
  t!"\nmsgid \"Lithuanian\"\nmsgstr \"Talitwanit\"\n\nmsgid \"Lower Sorbian\"\nmsgstr \"Tasiṛbit n wadda\"\n\nmsgid \"Luxembourgish\"\n" ++
  t!"msgstr \"\"\n\nmsgid \"Macedonian\"\nmsgstr \"Tamasidunit\"\n\nmsgid \"Malayalam\"\nmsgstr \"Tamayalamt\"\n\n" ++
  t!"msgid \"Marathi\"\nmsgstr \"\"\n\nmsgid \"March\"\nmsgstr \"Meɣres\"\n\nmsgid \"May\"\nmsgstr \"Mayyu\"\n" ++
  t!"\nmsgid \"Mexican Spanish\"\nmsgstr \"Taspanit n Miksik\"\n\nmsgid \"Mon\"\nmsgstr \"Ari\"\n\nmsgid \"Monday\"\n" ++
  t!"msgstr \"Arim\"\n\nmsgid \"Mongolian\"\nmsgstr \"\"\n\nmsgid \"Nepali\"\nmsgstr \"Tanipalit\"\n\n" ++
  t!"msgid \"Nicaraguan Spanish\"\nmsgstr \"Taspanit n Nikaragwa\"\n\nmsgid \"Norwegian Bokmål\"\nmsgstr \"\"\n\nmsgid \"Norwegian Nynorsk\"\nmsgstr \"\"\n" ++
  t!"\nmsgid \"November\"\nmsgstr \"Wamber\"\n\nmsgid \"October\"\nmsgstr \"Tuber\"\n\nmsgid \"Ossetic\"\n" ++
  t!"msgstr \"\"\n\nmsgid \"PM\"\nmsgstr \"MD\"\n\nmsgid \"Persian\"\nmsgstr \"Tafarsit\"\n\n" ++
  t!"msgid \"Polish\"\nmsgstr \"Tapulandit\"\n\nmsgid \"Portuguese\"\nmsgstr \"Tapurtugit\"\n\nmsgid \"Punjabi\"\nmsgstr \"Tabenjabit\"\n" ++
  t!"\nmsgid \"Romanian\"\nmsgstr \"Tarumanit\"\n\nmsgid \"Russian\"\nmsgstr \"Tarusit\"\n\nmsgid \"Sat\"\n" ++
  t!"msgstr \"Sed\"\n\nmsgid \"Saturday\"\nmsgstr \"Sed\"\n\nmsgid \"Scottish Gaelic\"\nmsgstr \"\"\n\n" ++
  t!"msgid \"September\"\nmsgstr \"Ctamber\"\n\nmsgid \"Serbian\"\nmsgstr \"Tasiṛbit\"\n\nmsgid \"Serbian Latin\"\nmsgstr \"\"\n" ++
  t!"\nmsgid \"Simplified Chinese\"\nmsgstr \"\"\n\nmsgid \"Slovak\"\nmsgstr \"Tasluvakt\"\n\nmsgid \"Slovenian\"\n" ++
  t!"msgstr \"\"\n\nmsgid \"Spanish\"\nmsgstr \"Taspanit\"\n\nmsgid \"Sun\"\nmsgstr \"Ace\"\n\n" ++
  t!"msgid \"Sunday\"\nmsgstr \"Acer\"\n\nmsgid \"Swahili\"\nmsgstr \"Taswahilit\"\n\nmsgid \"Swedish\"\nmsgstr \"Taswidit\"\n" ++
  t!"\nmsgid \"Tamil\"\nmsgstr \"Taṭamult\"\n\nmsgid \"Tatar\"\nmsgstr \"\"\n\nmsgid \"Telugu\"\n" ++
  t!"msgstr \"\"\n\nmsgid \"Thai\"\nmsgstr \"\"\n\nmsgid \"Thu\"\nmsgstr \"Amh\"\n\n" ++
  t!"msgid \"Thursday\"\nmsgstr \"Amhad\"\n\nmsgid \"Traditional Chinese\"\nmsgstr \"\"\n\nmsgid \"Tue\"\nmsgstr \"Ara\"\n" ++
  t!"\nmsgid \"Tuesday\"\nmsgstr \"Aram\"\n\nmsgid \"Turkish\"\nmsgstr \"Taṭurkit\"\n\nmsgid \"Udmurt\"\n" ++
  t!"msgstr \"\"\n\nmsgid \"Ukrainian\"\nmsgstr \"\"\n\nmsgid \"Upper Sorbian\"\nmsgstr \"\"\n\n" ++
  t!"msgid \"Urdu\"\nmsgstr \"\"\n\nmsgid \"Uzbek\"\nmsgstr \"\"\n\nmsgid \"Venezuelan Spanish\"\nmsgstr \"Taspanit n Vinizwila\"\n" ++
  t!"\nmsgid \"Vietnamese\"\nmsgstr \"\"\n\nmsgid \"Wed\"\nmsgstr \"Aha\"\n\nmsgid \"Wednesday\"\n" ++
  t!"msgstr \"Ahad\"\n\nmsgid \"Welsh\"\nmsgstr \"Takusit\"\n\nmsgid \"a.m.\"\nmsgstr \"f.t.\"\n\n" ++
  t!"msgid \"apr\"\nmsgstr \"yeb\"\n\nmsgid \"aug\"\nmsgstr \"ɣuc\"\n\nmsgid \"dec\"\nmsgstr \"duj\"\n" ++
  t!"\nmsgid \"feb\"\nmsgstr \"fuṛ\"\n\nmsgid \"jan\"\nmsgstr \"yen\"\n\nmsgid \"jul\"\n" ++
  t!"msgstr \"yul\"\n\nmsgid \"jun\"\nmsgstr \"yun\"\n\nmsgid \"mar\"\nmsgstr \"meɣ\"\n\n" ++
  t!"msgid \"may\"\nmsgstr \"may\"\n\nmsgid \"midnight\"\nmsgstr \"ttnaṣfa n yiḍ\"\n\nmsgid \"noon\"\nmsgstr \"ttnaṣfa n uzal\"\n" ++
  t!"\nmsgid \"nov\"\nmsgstr \"wam\"\n\nmsgid \"oct\"\nmsgstr \"tub\"\n\nmsgid \"p.m.\"\n" ++
  t!"msgstr \"m.d.\"\n\nmsgid \"sep\"\nmsgstr \"cte\"\n\nmsgctxt \"abbrev. month\"\nmsgid \"April\"\nmsgstr \"Yebrir\"\n" ++
  t!"\nmsgctxt \"abbrev. month\"\nmsgid \"Aug.\"\nmsgstr \"Ɣuc.\"\n\nmsgctxt \"abbrev. month\"\nmsgid \"Dec.\"\nmsgstr \"Duj.\"\n" ++
  t!"\nmsgctxt \"abbrev. month\"\nmsgid \"Feb.\"\nmsgstr \"Fuṛ.\"\n\nmsgctxt \"abbrev. month\"\nmsgid \"Jan.\"\nmsgstr \"Yen.\"\n" ++
  t!"\nmsgctxt \"abbrev. month\"\nmsgid \"July\"\nmsgstr \"Yulyu\"\n\nmsgctxt \"abbrev. month\"\nmsgid \"June\"\nmsgstr \"Yunyu\"\n" ++
  t!"\nmsgctxt \"abbrev. month\"\nmsgid \"March\"\nmsgstr \"Meɣres\"\n\nmsgctxt \"abbrev. month\"\nmsgid \"May\"\nmsgstr \"Mayyu\"\n" ++
  t!"\nmsgctxt \"abbrev. month\"\nmsgid \"Nov.\"\nmsgstr \"Wam.\"\n\nmsgctxt \"abbrev. month\"\nmsgid \"Oct.\"\nmsgstr \"Tub.\"\n" ++
  t!"\nmsgctxt \"abbrev. month\"\nmsgid \"Sept.\"\nmsgstr \"\"\n\nmsgctxt \"alt. month\"\nmsgid \"April\"\nmsgstr \"Yebrir\"\n" ++
  t!"\nmsgctxt \"alt. month\"\nmsgid \"August\"\nmsgstr \"Ɣuct\"\n\nmsgctxt \"alt. month\"\nmsgid \"December\"\nmsgstr \"Dujamber\"\n" ++
  t!"\nmsgctxt \"alt. month\"\nmsgid \"February\"\nmsgstr \"Fuṛaṛ\"\n\nmsgctxt \"alt. month\"\nmsgid \"January\"\nmsgstr \"Yennayer\"\n" ++
  t!"\nmsgctxt \"alt. month\"\nmsgid \"July\"\nmsgstr \"Yulyu\"\n\nmsgctxt \"alt. month\"\nmsgid \"June\"\nmsgstr \"Yunyu\"\n" ++
  t!"\nmsgctxt \"alt. month\"\nmsgid \"March\"\nmsgstr \"Meɣres\"\n\nmsgctxt \"alt. month\"\nmsgid \"May\"\nmsgstr \"Mayyu\"\n" ++
  t!"\nmsgctxt \"alt. month\"\nmsgid \"November\"\nmsgstr \"Wamber\"\n\nmsgctxt \"alt. month\"\nmsgid \"October\"\nmsgstr \"Tuber\"\n" ++
  t!"\nmsgctxt \"alt. month\"\nmsgid \"September\"\nmsgstr \"Ctamber\"\n"

end Verif.Model.Humanize
